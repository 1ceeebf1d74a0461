import Verif.Rest
import Verif.NodeLemmas
import Verif.Demo
import Mathlib.Data.List.Nodup
/-
C51: session queries; C63: direct table access.
-/
namespace Eupf

/-- Specification: session `x` is alive. -/
def Node.Alive (n : Node) (x : Session) : Prop := ∃ addr seid, n.session? addr seid = some x
/-- Specification: the session has a PDR with this TEID. -/
def Session.HasTeid (x : Session) (t : U32) : Prop := ∃ i p, x.pdrs.get? i = some p ∧ p.teid = t
/-- Specification: the session has a PDR with this UE IPv4 address. -/
def Session.HasIp4 (x : Session) (a : Ip4) : Prop := ∃ i p, x.pdrs.get? i = some p ∧ p.ipv4 = some a
/-- Specification: the session has a PDR with this UE IPv6 address. -/
def Session.HasIp6 (x : Session) (a : Ip6) : Prop := ∃ i p, x.pdrs.get? i = some p ∧ p.ipv6 = some a

/-- an IPv4 address as `net.ParseIP` returns it -/
def mapped (a : Ip4) : Ip6 := (0xffff : BitVec 96) ++ a

theorem mapped_inj {a b : Ip4} (h : mapped a = mapped b) : a = b := by
  have h1 := congrArg (fun x : Ip6 => x.extractLsb' 0 32) h
  have key : ∀ c : Ip4, (mapped c).extractLsb' 0 32 = c := by
    intro c
    apply BitVec.eq_of_getLsbD_eq; intro i hi
    rw [mapped, BitVec.getLsbD_extractLsb', BitVec.getLsbD_append]
    simp [hi]
  simpa [key] using h1

theorem mem_visit (n : Node) (o : QueryOrder) (addr : Addr) (seid : U64) (x : Session) :
    (addr, seid, x) ∈ n.visit o ↔ n.session? addr seid = some x := by
  simp only [Node.visit, List.mem_flatMap, List.mem_map, Prod.mk.injEq, Node.session?]
  constructor
  · rintro ⟨⟨a, as⟩, h1, ⟨s, y⟩, h2, rfl, rfl, rfl⟩
    have h1 := (n.assocs.mem_entries_iff a as).1 ((o.assocs.perm _).mem_iff.1 h1)
    have h2 := (as.sessions.mem_entries_iff s y).1 (((o.sessions a).perm _).mem_iff.1 h2)
    simp only [h1, Option.bind_some, h2]
  · intro h
    cases ha : n.assocs.get? addr with
    | none => rw [ha] at h; cases h
    | some as =>
      rw [ha] at h
      exact ⟨(addr, as), (o.assocs.perm _).mem_iff.2 ((n.assocs.mem_entries_iff addr as).2 ha), (seid, x),
        ((o.sessions addr).perm _).mem_iff.2 ((as.sessions.mem_entries_iff seid x).2 h), rfl, rfl, rfl⟩

theorem visit_length (n : Node) (o : QueryOrder) : (n.visit o).length = n.sessionCount := by
  have h1 : ∀ a : Addr × Assoc, (((o.sessions a.1).run a.2.sessions.entries).map fun s => (a.1, s.1, s.2)).length =
      a.2.sessions.size := by
    intro a; rw [List.length_map, ((o.sessions a.1).perm _).length_eq]; rfl
  simp only [Node.visit, List.length_flatMap, h1, Node.sessionCount, GoMap.values, List.map_map]
  exact (((o.assocs.perm n.assocs.entries).map _).sum_nat).trans rfl

/-- **C51, no parameters.** The answer has every live session and nothing else, and as many entries as there are live
sessions of all peers. -/
theorem C51_all (n : Node) (o1 o2 : QueryOrder) :
    (n.listSessions o1 o2 {}).1 = 200 ∧ (∀ x, x ∈ (n.listSessions o1 o2 {}).2 ↔ n.Alive x) ∧
    (n.listSessions o1 o2 {}).2.length = n.sessionCount := by
  have h : n.listSessions o1 o2 {} = (200, n.getAllSessions o1) := rfl
  rw [h]
  refine ⟨rfl, ?_, ?_⟩
  · intro x
    simp only [Node.getAllSessions, List.mem_map]
    constructor
    · rintro ⟨⟨a, s, y⟩, h1, rfl⟩
      exact ⟨a, s, (mem_visit n o1 a s y).1 h1⟩
    · rintro ⟨a, s, h1⟩
      exact ⟨(a, s, x), (mem_visit n o1 a s x).2 h1, rfl⟩
  · simp only [Node.getAllSessions, List.length_map, visit_length]

theorem any_pdr (s : Shuffle (U32 × SPdr)) (x : Session) (p : SPdr → Bool) :
    ((s.run x.pdrs.entries).any fun e => p e.2) = true ↔ ∃ i q, x.pdrs.get? i = some q ∧ p q = true := by
  simp only [List.any_eq_true]
  constructor
  · rintro ⟨⟨i, q⟩, h1, h2⟩
    exact ⟨i, q, (x.pdrs.mem_entries_iff i q).1 ((s.perm _).mem_iff.1 h1), h2⟩
  · rintro ⟨i, q, h1, h2⟩
    exact ⟨(i, q), (s.perm _).mem_iff.2 ((x.pdrs.mem_entries_iff i q).2 h1), h2⟩

theorem find_visit (n : Node) (o : QueryOrder) (p : SPdr → Bool) (r : Option Session)
    (hr : r = ((n.visit o).find? fun x => ((o.pdrs x.1 x.2.1).run x.2.2.pdrs.entries).any fun e => p e.2).map fun x => x.2.2) :
    (∀ x, r = some x → n.Alive x ∧ ∃ i q, x.pdrs.get? i = some q ∧ p q = true) ∧
    (r = none → ∀ x, n.Alive x → ¬ ∃ i q, x.pdrs.get? i = some q ∧ p q = true) := by
  subst hr
  constructor
  · intro x hx
    obtain ⟨⟨a, s, y⟩, h1, rfl⟩ := Option.map_eq_some_iff.1 hx
    refine ⟨⟨a, s, (mem_visit n o a s y).1 (List.mem_of_find?_eq_some h1)⟩, ?_⟩
    have h2 := List.find?_some h1
    exact (any_pdr _ _ _).1 h2
  · intro hn x ⟨a, s, hx⟩ hp
    rw [Option.map_eq_none_iff, List.find?_eq_none] at hn
    exact hn (a, s, x) ((mem_visit n o a s x).2 hx) ((any_pdr _ _ _).2 hp)

/-- Exactly one of the matching sessions is returned, or none if there is none. -/
def OneOf (l : List Session) (P : Session → Prop) : Prop := (l = [] ∧ ∀ x, ¬ P x) ∨ ∃ x, l = [x] ∧ P x

theorem teid_query (n : Node) (o : QueryOrder) (t : U32) :
    OneOf (n.filterSessionsByTeid o t).toList (fun x => n.Alive x ∧ x.HasTeid t) := by
  have h := find_visit n o (fun q => q.teid == t) (n.filterSessionsByTeid o t) rfl
  simp only [beq_iff_eq] at h
  cases hr : n.filterSessionsByTeid o t with
  | none => exact .inl ⟨rfl, fun x hx => h.2 hr x hx.1 hx.2⟩
  | some x => exact .inr ⟨x, rfl, (h.1 x hr)⟩

theorem ip_query (n : Node) (o : QueryOrder) (ip : Ip6) :
    OneOf (n.filterSessionsByIP o ip).toList (fun x => n.Alive x ∧ ∃ a, mapped a = ip ∧ x.HasIp4 a) := by
  have h := find_visit n o (fun q => ipEqual q.ipv4 ip) (n.filterSessionsByIP o ip) rfl
  have key : ∀ x : Session, (∃ i q, x.pdrs.get? i = some q ∧ ipEqual q.ipv4 ip = true) ↔ ∃ a, mapped a = ip ∧ x.HasIp4 a := by
    intro x
    constructor
    · rintro ⟨i, q, h1, h2⟩
      unfold ipEqual at h2
      cases hq : q.ipv4 with
      | none => rw [hq] at h2; cases h2
      | some a => rw [hq] at h2; exact ⟨a, eq_of_beq h2, i, q, h1, hq⟩
    · rintro ⟨a, h1, i, q, h2, h3⟩
      refine ⟨i, q, h2, ?_⟩
      simp only [ipEqual, h3]
      exact beq_iff_eq.2 h1
  simp only [key] at h
  cases hr : n.filterSessionsByIP o ip with
  | none => exact .inl ⟨rfl, fun x hx => h.2 hr x hx.1 hx.2⟩
  | some x => exact .inr ⟨x, rfl, h.1 x hr⟩

/-- **C51, by TEID (part).** In every state and for every iteration order, a query by a TEID of 32 bits answers with one of the live
sessions that have a PDR with that TEID, and with nothing only if there is none. Missing: all such sessions (false, below). -/
theorem C51_teid_partial (n : Node) (o1 o2 : QueryOrder) (t : U32) :
    (n.listSessions o1 o2 { teid := some (some t.toNat) }).1 = 200 ∧
    OneOf (n.listSessions o1 o2 { teid := some (some t.toNat) }).2 (fun x => n.Alive x ∧ x.HasTeid t) := by
  have h : n.listSessions o1 o2 { teid := some (some (t.toNat : Int)) } =
      (200, (n.filterSessionsByTeid o2 (BitVec.ofInt 32 (t.toNat : Int))).toList) := by
    simp [Node.listSessions]
  rw [h]
  have : BitVec.ofInt 32 (t.toNat : Int) = t := by simp
  rw [this]
  exact ⟨rfl, teid_query n o2 t⟩

/-- **C51, by IPv4 address (part).** The same for UE IPv4 addresses. -/
theorem C51_ip4_partial (n : Node) (o1 o2 : QueryOrder) (a : Ip4) :
    (n.listSessions o1 o2 { ip := some (some (mapped a)) }).1 = 200 ∧
    OneOf (n.listSessions o1 o2 { ip := some (some (mapped a)) }).2 (fun x => n.Alive x ∧ x.HasIp4 a) := by
  have h : n.listSessions o1 o2 { ip := some (some (mapped a)) } = (200, (n.filterSessionsByIP o1 (mapped a)).toList) := by
    simp [Node.listSessions]
  rw [h]
  refine ⟨rfl, ?_⟩
  have h2 := ip_query n o1 (mapped a)
  have e : (fun x => n.Alive x ∧ ∃ b, mapped b = mapped a ∧ x.HasIp4 b) = fun x => n.Alive x ∧ x.HasIp4 a := by
    funext x
    refine propext ⟨?_, ?_⟩
    · rintro ⟨h, b, hb, h3⟩; rw [← mapped_inj hb]; exact ⟨h, h3⟩
    · rintro ⟨h, h3⟩; exact ⟨h, a, rfl, h3⟩
  rwa [e] at h2

/-- … hence the answer is exact when no two live sessions share the TEID. -/
theorem C51_teid_unique_partial (n : Node) (o1 o2 : QueryOrder) (t : U32)
    (hu : ∀ x y, n.Alive x → x.HasTeid t → n.Alive y → y.HasTeid t → x = y) (x : Session) :
    x ∈ (n.listSessions o1 o2 { teid := some (some t.toNat) }).2 ↔ n.Alive x ∧ x.HasTeid t := by
  rcases (C51_teid_partial n o1 o2 t).2 with ⟨h, hn⟩ | ⟨y, h, hy⟩
  · rw [h]; exact ⟨fun hx => by simp at hx, fun hx => (hn x hx).elim⟩
  · rw [h, List.mem_singleton]
    exact ⟨fun e => e ▸ hy, fun hx => hu x y hx.1 hx.2 hy.1 hy.2⟩

/-- **C51, negation.** A query by TEID never lists two sessions: if two different live sessions have it, one is missing,
whichever order the maps are iterated in. -/
theorem C51_second_missing (n : Node) (o1 o2 : QueryOrder) (t : U32) (x y : Session) (hxy : x ≠ y) :
    ¬ (x ∈ (n.listSessions o1 o2 { teid := some (some t.toNat) }).2 ∧ y ∈ (n.listSessions o1 o2 { teid := some (some t.toNat) }).2) := by
  rintro ⟨hx, hy⟩
  rcases (C51_teid_partial n o1 o2 t).2 with ⟨h, _⟩ | ⟨z, h, _⟩
  · rw [h] at hx; simp at hx
  · rw [h, List.mem_singleton] at hx hy; exact hxy (hx.trans hy.symm)

/-- **C51, negation: IPv6.** A query by an IPv6 address (not of the form ::ffff:a.b.c.d) finds nothing, whatever sessions there are. -/
theorem C51_ip6_never (n : Node) (o1 o2 : QueryOrder) (ip : Ip6) (h : ∀ a, mapped a ≠ ip) :
    n.listSessions o1 o2 { ip := some (some ip) } = (200, []) := by
  have h1 : n.listSessions o1 o2 { ip := some (some ip) } = (200, (n.filterSessionsByIP o1 ip).toList) := by
    simp [Node.listSessions]
  rw [h1]
  rcases ip_query n o1 ip with ⟨h2, _⟩ | ⟨x, _, _, a, ha, _⟩
  · rw [h2]
  · exact (h a ha).elim

/-- **C51, negation: numbers that are no TEID.** They are taken modulo 2^32 and answered with the session of another TEID. -/
theorem C51_wraps (n : Node) (o1 o2 : QueryOrder) (t : U32) (k : Int) :
    n.listSessions o1 o2 { teid := some (some (t.toNat + 2 ^ 32 * k)) } = n.listSessions o1 o2 { teid := some (some t.toNat) } := by
  have : BitVec.ofInt 32 ((t.toNat : Int) + 2 ^ 32 * k) = BitVec.ofInt 32 (t.toNat : Int) := by
    apply BitVec.eq_of_toNat_eq
    simp only [BitVec.toNat_ofInt]
    congr 1
    rw [show ((2 ^ 32 : Nat) : Int) = 2 ^ 32 from rfl, Int.add_mul_emod_self_left]
  simp only [Node.listSessions, this]
  rfl

/-- **C51, both parameters.** The answer is the answer by address followed by the answer by TEID (a session that matches both is
listed twice). -/
theorem C51_both (n : Node) (o1 o2 : QueryOrder) (ip : Ip6) (t : Int) :
    (n.listSessions o1 o2 { ip := some (some ip), teid := some (some t) }).2 =
      (n.listSessions o1 o2 { ip := some (some ip) }).2 ++ (n.listSessions o1 o2 { teid := some (some t) }).2 := by
  simp [Node.listSessions]

namespace Demo
/-- two sessions of one peer that ask for the same TEID 7 -/
def sameTeid (cp : U64) : EstReq :=
  { seq := 5, nodeId := some (some ()), cpFseid := some (some cp), createFar := [fwd],
    createPdr := [{ pdrId := some 1, farId := some 1, pdi := some { fteid := some (some ⟨7, false, none⟩) } }] }
def nSame : Node := (n0.run [.assocSetup 1 1 (some (some ())) (some (some ())), .establish 1 (sameTeid 100), .establish 1 (sameTeid 101)]).1
/-- a session with a UE IPv6 address -/
def nSix : Node := (n0.run [.assocSetup 1 1 (some (some ())) (some (some ())), .establish 1
  { seq := 5, nodeId := some (some ()), cpFseid := some (some 100), createFar := [fwd],
    createPdr := [{ pdrId := some 1, farId := some 1, pdi := some { ueip := some (some { ipv6 := some 0x20010db8000000000000000000000001 }) } }] }]).1
end Demo

/-- Non-vacuity and witnesses: two live sessions with TEID 7, only one is listed; a live session with an IPv6 address is not
found by it; a session without TEID is found by TEID 0. -/
example : (Demo.nSame.session? 1 2).isSome ∧ (Demo.nSame.session? 1 3).isSome ∧ Demo.nSame.session? 1 2 ≠ Demo.nSame.session? 1 3 ∧
    ((Demo.nSame.listSessions default default { teid := some (some 7) }).2.map Session.localSEID) = [3] ∧
    ((Demo.nSame.listSessions default default {}).2.map Session.localSEID) = [3, 2] := by decide +kernel
example : ((Demo.nSix.session? 1 2).map fun x => (x.pdrs.get? 1).map SPdr.ipv6) = some (some (some 0x20010db8000000000000000000000001)) ∧
    (Demo.nSix.listSessions default default { ip := some (some 0x20010db8000000000000000000000001) }) = (200, []) ∧
    ((Demo.nSix.listSessions default default { teid := some (some 0) }).2.map Session.localSEID) = [2] := by decide +kernel
example : ((Demo.nEnd.listSessions default default { ip := some (some (mapped 0x0a2d0002)) }).2.map Session.localSEID) = [3] := by decide +kernel

/-! ### direct table access -/

/-- **C63, FAR.** A FAR written through the REST interface within the table's range is answered by a read of the same id, and reads of
other ids, and everything else in the tables, stay as they were; outside the range nothing changes. -/
theorem C63_far (b : BpfObjects) (e : FarElem) :
    ((b.restSetFar e).2 = true ↔ e.id.toNat < b.far.size.toNat) ∧
    ((b.restSetFar e).2 = true → (b.restSetFar e).1.restGetFar e.id.toNat = some e ∧
      (∀ i : Int, BitVec.ofInt 32 i ≠ e.id → (b.restSetFar e).1.restGetFar i = b.restGetFar i) ∧
      (b.restSetFar e).1 = { b with far := (b.restSetFar e).1.far }) ∧
    ((b.restSetFar e).2 = false → (b.restSetFar e).1 = b) := by
  by_cases h : e.id.toNat < b.far.size.toNat
  · have hs : b.restSetFar e = ({ b with far := { b.far with val := fun j => if j = e.id then ⟨e.action, e.ohc, e.teid, e.remoteIP, e.tlm⟩ else b.far.val j } }, true) := by
      simp [BpfObjects.restSetFar, ArrMap.update, h]
    rw [hs]
    refine ⟨by simp [h], fun _ => ⟨?_, ?_, rfl⟩, by simp⟩
    · simp [BpfObjects.restGetFar, ArrMap.lookup, h]
    · intro i hi
      simp [BpfObjects.restGetFar, ArrMap.lookup, hi]
  · have hs : b.restSetFar e = (b, false) := by simp [BpfObjects.restSetFar, ArrMap.update, h]
    rw [hs]
    exact ⟨by simp [h], by simp, fun _ => rfl⟩

/-- **C63, QER.** The same for QERs; a write also clears the rate limiter's times, so the next packet of each direction passes the
rate check. -/
theorem C63_qer (b : BpfObjects) (e : QerElem) :
    ((b.restSetQer e).2 = true ↔ e.id.toNat < b.qer.size.toNat) ∧
    ((b.restSetQer e).2 = true → (b.restSetQer e).1.restGetQer e.id.toNat = some e ∧
      (∀ i : Int, BitVec.ofInt 32 i ≠ e.id → (b.restSetQer e).1.restGetQer i = b.restGetQer i) ∧
      (b.restSetQer e).1 = { b with qer := (b.restSetQer e).1.qer } ∧
      ((b.restSetQer e).1.qer.val e.id).startUL = 0 ∧ ((b.restSetQer e).1.qer.val e.id).startDL = 0) ∧
    ((b.restSetQer e).2 = false → (b.restSetQer e).1 = b) := by
  by_cases h : e.id.toNat < b.qer.size.toNat
  · have hs : b.restSetQer e = ({ b with qer := { b.qer with val := fun j => if j = e.id then ⟨e.gateUL, e.gateDL, e.qfi, e.mbrUL, e.mbrDL, 0, 0⟩ else b.qer.val j } }, true) := by
      simp [BpfObjects.restSetQer, ArrMap.update, h]
    rw [hs]
    refine ⟨by simp [h], fun _ => ⟨?_, ?_, rfl, ?_, ?_⟩, by simp⟩
    · simp [BpfObjects.restGetQer, ArrMap.lookup, h]
    · intro i hi
      simp [BpfObjects.restGetQer, ArrMap.lookup, hi]
    · simp
    · simp
  · have hs : b.restSetQer e = (b, false) := by simp [BpfObjects.restSetQer, ArrMap.update, h]
    rw [hs]
    exact ⟨by simp [h], by simp, fun _ => rfl⟩

/-- Non-vacuity -/
example : (Demo.dp.restSetFar ⟨3, 2, 1, 77, 5, 0⟩).2 = true ∧ (Demo.dp.restSetFar ⟨4, 2, 1, 77, 5, 0⟩).2 = false ∧
    (Demo.dp.restSetQer ⟨3, 0, 0, 9, 1000, 1000⟩).2 = true := by decide +kernel

end Eupf
