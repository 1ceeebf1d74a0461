import Verif.Spec.Json
import Verif.Props.Rest
import Std.Data.String.ToNat
import Mathlib.Data.List.Forall2
import Mathlib.Data.List.Nodup
/-
C89: what the REST interface shows of sessions and associations.
-/
namespace Eupf

theorem dec_inj {w : Nat} {a b : BitVec w} (h : dec a = dec b) : a = b := BitVec.eq_of_toNat_eq (Nat.repr_injective h)

theorem lookup_mem {l : List (String × Json)} {k : String} {v : Json} (h : l.lookup k = some v) : (k, v) ∈ l := by
  induction l with
  | nil => cases h
  | cons x l ih =>
    obtain ⟨k', v'⟩ := x
    rw [List.lookup_cons] at h
    cases hk : k == k' with
    | true => rw [hk] at h; cases h; rw [eq_of_beq hk]; exact .head _
    | false => rw [hk] at h; exact .tail _ (ih h)

theorem mem_lookup {l : List (String × Json)} {k : String} {v : Json} (hn : (l.map Prod.fst).Nodup) (h : (k, v) ∈ l) :
    l.lookup k = some v := by
  induction l with
  | nil => cases h
  | cons x l ih =>
    obtain ⟨k', v'⟩ := x
    rw [List.map_cons, List.nodup_cons] at hn
    rw [List.lookup_cons]
    cases h with
    | head => simp
    | tail _ h =>
      have : (k == k') = false := by
        cases hk : k == k' with
        | false => rfl
        | true =>
          have := eq_of_beq hk; subst this
          exact absurd (List.mem_map_of_mem (f := Prod.fst) h) hn.1
      rw [this]; exact ih hn.2 h

theorem sort_perm (l : List (String × Json)) : (sortFields l).Perm l := List.mergeSort_perm _ _

/-- sorting the fields does not change what they are -/
theorem sort_lookup {l : List (String × Json)} (hn : (l.map Prod.fst).Nodup) (k : String) :
    (sortFields l).lookup k = l.lookup k := by
  have hn' : ((sortFields l).map Prod.fst).Nodup := ((sort_perm l).map _).nodup_iff.2 hn
  apply Option.ext; intro v
  exact ⟨fun h => mem_lookup hn ((sort_perm l).mem_iff.1 (lookup_mem h)), fun h => mem_lookup hn' ((sort_perm l).mem_iff.2 (lookup_mem h))⟩

/-- the fields of a map all of whose values encode -/
theorem fields_ok {α : Type} {l : List α} {key : α → String} {val : α → GoVal} {P : α → Json → Prop}
    (h : ∀ a ∈ l, ∃ j, (val a).marshal = some j ∧ P a j) :
    ∃ js, marshalFields (l.map fun a => (key a, val a)) = some js ∧ js.map Prod.fst = l.map key ∧
      (∀ a ∈ l, ∃ x, (key a, x) ∈ js ∧ P a x) := by
  induction l with
  | nil => exact ⟨[], rfl, rfl, fun _ h => nomatch h⟩
  | cons a l ih =>
    obtain ⟨js, h1, h2, h3⟩ := ih fun b hb => h b (.tail _ hb)
    obtain ⟨j, hj, hp⟩ := h a (.head _)
    refine ⟨(key a, j) :: js, ?_, ?_, ?_⟩
    · simp only [List.map_cons, marshalFields, hj, h1]
    · simp only [List.map_cons, h2]
    · intro b hb
      cases hb with
      | head => exact ⟨j, .head _, hp⟩
      | tail _ hb => obtain ⟨x, hx, hp⟩ := h3 b hb; exact ⟨x, .tail _ hx, hp⟩

/-- a Go map all of whose values encode, encodes -/
theorem goMap_ok {w : Nat} {V : Type} {f : V → GoVal} {P : V → Json → Prop} (m : GoMap (BitVec w) V)
    (h : ∀ v, ∃ j, (f v).marshal = some j ∧ P v j) :
    ∃ l, (goMap f m).marshal = some (.obj l) ∧ (∀ k v, m.get? k = some v → ∃ x, l.lookup (dec k) = some x ∧ P v x) ∧
      ∀ name x, l.lookup name = some x → ∃ k v, name = dec k ∧ m.get? k = some v := by
  obtain ⟨js, h1, h2, h3⟩ := fields_ok (l := m.entries) (key := fun e => dec e.1) (val := fun e => f e.2)
    (P := fun e j => P e.2 j) fun e _ => h e.2
  have hn : (js.map Prod.fst).Nodup := by
    rw [h2, show (m.entries.map fun e => dec e.1) = (m.entries.map Prod.fst).map dec by rw [List.map_map]; rfl]
    exact m.nodup.map fun a b e => dec_inj e
  refine ⟨sortFields js, ?_, ?_, ?_⟩
  · simp only [goMap, GoVal.marshal, h1, Option.map_some]
  · intro k v hk
    obtain ⟨x, hx, hp⟩ := h3 (k, v) ((m.mem_entries_iff k v).2 hk)
    exact ⟨x, by rw [sort_lookup hn]; exact mem_lookup hn hx, hp⟩
  · intro name x hx
    rw [sort_lookup hn] at hx
    have : name ∈ js.map Prod.fst := List.mem_map_of_mem (f := Prod.fst) (lookup_mem hx)
    rw [h2, List.mem_map] at this
    obtain ⟨e, he, rfl⟩ := this
    exact ⟨e.1, e.2, rfl, (m.mem_entries_iff e.1 e.2).1 he⟩

theorem ip_text (tx : Texts) (l : List U8) : IpText tx l (tx.ip l) := by
  refine ⟨fun h => by subst h; rfl, fun a b c d h => by subst h; rfl, fun h => ?_⟩
  match l, h with
  | _ :: _ :: _ :: _ :: _ :: _, _ => rfl

theorem ip4_text (tx : Texts) (a : Ip4) : tx.ip (octets4 a) = dotted a.toNat := by
  have hs : ∀ i, (a.extractLsb' i 8).toNat = a.toNat / 2 ^ i % 256 := fun i => by
    rw [BitVec.extractLsb'_toNat, Nat.shiftRight_eq_div_pow]
  show dec _ ++ "." ++ dec _ ++ "." ++ dec _ ++ "." ++ dec _ = _
  unfold dec dotted
  rw [hs, hs, hs, hs, Nat.pow_zero, Nat.div_one]

theorem le_text (tx : Texts) (a : U32) : tx.ip (leOctets a) = dottedLe a.toNat := by
  have hs : ∀ i, (a.extractLsb' i 8).toNat = a.toNat / 2 ^ i % 256 := fun i => by
    rw [BitVec.extractLsb'_toNat, Nat.shiftRight_eq_div_pow]
  show dec _ ++ "." ++ dec _ ++ "." ++ dec _ ++ "." ++ dec _ = _
  unfold dec dottedLe
  rw [hs, hs, hs, hs, Nat.pow_zero, Nat.div_one]

theorem octets6_is (a : Ip6) : IsOctets6 a (octets6 a) := by
  refine ⟨by simp [octets6], fun i h => ?_⟩
  simp only [octets6, List.getElem_map, List.getElem_range, BitVec.extractLsb'_toNat, Nat.shiftRight_eq_div_pow]

theorem ip6_text (tx : Texts) (a : Ip6) : tx.ip (octets6 a) = tx.ip6 (octets6 a) := rfl

theorem end_ok {tx : Texts} {a : IpWMask} {r : PortRange} {addr ports : List String} {j : Json}
    (h1 : j.at addr = (a.go tx).marshal) (h2 : j.at ports = r.go.marshal) : ShowsEnd tx a r addr ports j := by
  have app : ∀ (p : List String) (k : String) (j : Json), j.at (p ++ [k]) = (j.at p).bind (Json.field k) := by
    intro p k
    induction p with
    | nil =>
      intro j
      show (j.field k).bind some = j.field k
      cases j.field k <;> rfl
    | cons x p ih =>
      intro j
      show (j.field x).bind (Json.at (p ++ [k])) = ((j.field x).bind (Json.at p)).bind _
      cases j.field x with
      | none => rfl
      | some y => exact ih y
  obtain ⟨ty, ip, m⟩ := a
  constructor
  · unfold Json.NumAt; rw [app, h1]; cases m <;> rfl
  · refine ⟨tx.ip ip, ?_, ip_text tx ip⟩
    unfold Json.StrAt; rw [app, h1]; cases m <;> rfl
  · intro h
    cases h
    rw [app, h1]; rfl
  · intro h
    cases m with
    | nil => exact absurd rfl h
    | cons b m => unfold Json.StrAt; rw [app, h1]; rfl
  · unfold Json.NumAt; rw [app, h2]; rfl
  · unfold Json.NumAt; rw [app, h2]; rfl

theorem pdr_ok (tx : Texts) (p : SPdr) : ∃ j, (p.go tx).marshal = some j ∧ ShowsPdr tx p j := by
  obtain ⟨id, ⟨ohr, fid, qid, u1, u2, sdf⟩, teid, ip4, ip6, al⟩ := p
  have h4 : ∀ a, ip4 = some a → tx.ip ((ip4.map octets4).getD []) = dotted a.toNat := fun a h => by subst h; exact ip4_text tx a
  have n4 : ip4 = none → tx.ip ((ip4.map octets4).getD []) = "" := fun h => by subst h; rfl
  have h6 : ∀ a, ip6 = some a → tx.ip ((ip6.map octets6).getD []) = tx.ip6 (octets6 a) := fun a h => by subst h; rfl
  have n6 : ip6 = none → tx.ip ((ip6.map octets6).getD []) = "" := fun h => by subst h; rfl
  cases sdf with
  | none =>
    refine ⟨_, rfl, rfl, rfl, rfl, rfl, rfl, rfl, fun _ => rfl, (fun f h => by cases h), rfl, fun a h => ?_, fun h => ?_,
      fun a h => ⟨_, octets6_is a, ?_⟩, fun h => ?_, rfl⟩
    · exact congrArg (fun s => some (Json.str s)) (h4 a h)
    · exact congrArg (fun s => some (Json.str s)) (n4 h)
    · exact congrArg (fun s => some (Json.str s)) (h6 a h)
    · exact congrArg (fun s => some (Json.str s)) (n6 h)
  | some f =>
    obtain ⟨pr, ⟨t1, i1, m1⟩, r1, ⟨t2, i2, m2⟩, r2⟩ := f
    cases m1 <;> cases m2 <;> refine ⟨_, rfl, rfl, rfl, rfl, rfl, rfl, rfl, (fun h => by cases h), (fun f h => ?_), rfl, fun a h => ?_, fun h => ?_,
      fun a h => ⟨_, octets6_is a, ?_⟩, fun h => ?_, rfl⟩ <;>
      first
        | exact congrArg (fun s => some (Json.str s)) (h4 a h)
        | exact congrArg (fun s => some (Json.str s)) (n4 h)
        | exact congrArg (fun s => some (Json.str s)) (h6 a h)
        | exact congrArg (fun s => some (Json.str s)) (n6 h)
        | (cases h; exact ⟨rfl, end_ok rfl rfl, end_ok rfl rfl⟩)

/-- the JSON fields of a FAR's values -/
def farFields (tx : Texts) (f : FarInfo) : List (String × Json) :=
  [("action", .num f.action.toNat), ("outer_header_creation", .num f.ohc.toNat), ("teid", .num f.teid.toNat),
    ("remote_ip", .str (tx.ip (leOctets f.remoteIP))), ("transport_level_marking", .num f.tlm.toNat)]

theorem far_ok (tx : Texts) (f : SFar) : ∃ j, (f.go tx).marshal = some j ∧ ShowsFar f j := by
  refine ⟨.obj [("FarInfo", .obj (sortFields (farFields tx f.info))), ("GlobalId", .num f.gid.toNat)], rfl, ?_⟩
  have key : ∀ k x, (farFields tx f.info).lookup k = some x →
      (Json.obj [("FarInfo", .obj (sortFields (farFields tx f.info))), ("GlobalId", .num f.gid.toNat)]).at ["FarInfo", k] = some x := by
    intro k x h
    refine Eq.trans (b := ((sortFields (farFields tx f.info)).lookup k).bind fun j => some j) rfl ?_
    rw [sort_lookup (by simp [farFields]), h]; rfl
  exact ⟨key _ _ rfl, key _ _ rfl, key _ _ rfl, (key _ _ rfl).trans (by rw [le_text]), key _ _ rfl, rfl⟩

theorem qer_ok (q : SQer) : ∃ j, q.go.marshal = some j ∧ ShowsQer q j := ⟨_, rfl, rfl, rfl, rfl, rfl, rfl, rfl⟩

theorem urr_ok (u : SUrr) : ∃ j, u.go.marshal = some j ∧ ShowsUrr u j := ⟨_, rfl, rfl, rfl, rfl, rfl⟩

theorem session_ok (tx : Texts) (s : Session) : ∃ j, (s.go tx).marshal = some j ∧ ShowsSession tx s j := by
  obtain ⟨p, hp, p1, p2⟩ := goMap_ok s.pdrs (pdr_ok tx)
  obtain ⟨f, hf, f1, f2⟩ := goMap_ok s.fars (far_ok tx)
  obtain ⟨q, hq, q1, q2⟩ := goMap_ok s.qers qer_ok
  obtain ⟨u, hu, u1, u2⟩ := goMap_ok s.urrs urr_ok
  refine ⟨.obj [("LocalSEID", .num s.localSEID.toNat), ("RemoteSEID", .num s.remoteSEID.toNat), ("PDRs", .obj p), ("FARs", .obj f),
    ("QERs", .obj q), ("URRs", .obj u)], ?_, ?_⟩
  · simp only [Session.go, GoVal.marshal, marshalFields, gnum, hp, hf, hq, hu, Option.map_some]
  · have two : ∀ l : List (String × Json), ∀ name, ((l.lookup name).bind fun j => some j) = l.lookup name := fun l name => by
      cases l.lookup name <;> rfl
    exact ⟨rfl, rfl,
      ⟨fun k v h => (by obtain ⟨x, hx, h⟩ := p1 k v h; exact ⟨x, (two p _).trans hx, h⟩), fun nm x h => p2 nm x ((two p _).symm.trans h)⟩,
      ⟨fun k v h => (by obtain ⟨x, hx, h⟩ := f1 k v h; exact ⟨x, (two f _).trans hx, h⟩), fun nm x h => f2 nm x ((two f _).symm.trans h)⟩,
      ⟨fun k v h => (by obtain ⟨x, hx, h⟩ := q1 k v h; exact ⟨x, (two q _).trans hx, h⟩), fun nm x h => q2 nm x ((two q _).symm.trans h)⟩,
      ⟨fun k v h => (by obtain ⟨x, hx, h⟩ := u1 k v h; exact ⟨x, (two u _).trans hx, h⟩), fun nm x h => u2 nm x ((two u _).symm.trans h)⟩⟩

theorem sessions_ok (tx : Texts) (l : List Session) :
    ∃ js, marshalList (l.map (Session.go tx)) = some js ∧ List.Forall₂ (ShowsSession tx) l js := by
  induction l with
  | nil => exact ⟨[], rfl, .nil⟩
  | cons s l ih =>
    obtain ⟨js, h1, h2⟩ := ih
    obtain ⟨j, h3, h4⟩ := session_ok tx s
    exact ⟨j :: js, by simp only [List.map_cons, marshalList, h1, h3], .cons h4 h2⟩

/-- **C89, the sessions.** GET /pfcp_sessions always answers 200 with a JSON document. If there are sessions it is an array with one
element for each live session, and that element shows its SEIDs and exactly its rules, with their values and table slots. -/
theorem C89_sessions (n : Node) (tx : Texts) (o : QueryOrder) (h : n.sessionCount ≠ 0) :
    ∃ l js, n.getSessions tx o = ⟨200, some (.arr js)⟩ ∧ List.Forall₂ (ShowsSession tx) l js ∧ l.length = n.sessionCount ∧
      ∀ s, s ∈ l ↔ n.Alive s := by
  obtain ⟨js, h1, h2⟩ := sessions_ok tx (n.getAllSessions o)
  obtain ⟨_, ha, hl⟩ := C51_all n o o
  refine ⟨n.getAllSessions o, js, ?_, h2, hl, ha⟩
  have hl : (n.getAllSessions o).length = n.sessionCount := hl
  cases hs : n.getAllSessions o with
  | nil => rw [hs] at hl; exact absurd hl.symm h
  | cons s l =>
    rw [hs] at h1
    simp only [Node.getSessions, hs, List.map_cons, goAppended, indentedJSON, GoVal.marshal]
    rw [List.map_cons] at h1
    rw [h1]; rfl

/-- **C89, queries.** The last document of an answer to a query shows exactly the sessions found (C51 says which), in this order; `null`
if there are none. -/
theorem C89_query (n : Node) (tx : Texts) (o1 o2 : QueryOrder) (q : SessionQuery) :
    ∃ j, (n.querySessions tx o1 o2 q).2.getLast? = some (some j) ∧
      (((n.listSessions o1 o2 q).2 = [] ∧ j = .null) ∨
        ∃ js, j = .arr js ∧ List.Forall₂ (ShowsSession tx) (n.listSessions o1 o2 q).2 js) := by
  obtain ⟨js, h1, h2⟩ := sessions_ok tx (n.listSessions o1 o2 q).2
  simp only [Node.querySessions, List.getLast?_append, List.getLast?_singleton, Option.some_or]
  cases hs : (n.listSessions o1 o2 q).2 with
  | nil => exact ⟨.null, rfl, .inl ⟨rfl, rfl⟩⟩
  | cons s l =>
    rw [hs] at h1 h2
    rw [List.map_cons] at h1
    refine ⟨.arr js, ?_, .inr ⟨js, rfl, h2⟩⟩
    simp only [List.map_cons, goAppended, GoVal.marshal, h1]; rfl

/-- **C89, one document.** The body is one JSON document only if every parameter was readable: otherwise the message about the parameter
and the list of sessions are both written. -/
theorem C89_one_document_partial (n : Node) (tx : Texts) (o1 o2 : QueryOrder) (q : SessionQuery) :
    (n.querySessions tx o1 o2 q).2.length = 1 ↔ q.ip ≠ some none ∧ q.teid ≠ some none := by
  simp only [Node.querySessions, List.length_append, List.length_singleton]
  by_cases h1 : q.ip = some none <;> by_cases h2 : q.teid = some none <;> simp [h1, h2]

/-- **C89, two documents.** With an unreadable address the body is a string followed by a list. -/
theorem C89_two_documents (n : Node) (tx : Texts) (o1 o2 : QueryOrder) (t : Option Int) :
    (n.querySessions tx o1 o2 ⟨some none, t.map some⟩).1 = 400 ∧
    ∃ j, (n.querySessions tx o1 o2 ⟨some none, t.map some⟩).2 = [some (.str "Failed to parse IP"), some j] := by
  obtain ⟨j, hj, -⟩ := C89_query n tx o1 o2 ⟨some none, t.map some⟩
  have ht : t.map some ≠ some none := by cases t <;> simp
  simp only [Node.querySessions, List.getLast?_append, List.getLast?_singleton, Option.some_or, Option.some.injEq] at hj
  refine ⟨by simp [Node.querySessions, Node.listSessions], j, ?_⟩
  simp only [Node.querySessions, hj, if_pos, if_neg ht, List.append_nil, List.singleton_append]

/-- **C89, no sessions.** Without sessions the document is `null`, not an empty array. -/
theorem C89_no_sessions (n : Node) (tx : Texts) (o : QueryOrder) (h : n.sessionCount = 0) :
    n.getSessions tx o = ⟨200, some .null⟩ := by
  obtain ⟨_, _, hl⟩ := C51_all n o o
  have hl : (n.getAllSessions o).length = n.sessionCount := hl
  rw [h, List.length_eq_zero_iff] at hl
  rw [Node.getSessions, hl]; rfl

/-- **C89, the associations.** GET /pfcp_associations always answers 200 with an object that has exactly one field for each associated
peer, named by its address, with its Node ID, address and SEID counter. -/
theorem C89_associations (n : Node) (tx : Texts) (hi : ∀ a b, tx.addr a = tx.addr b → a = b) :
    ∃ j, n.getAssociations tx = ⟨200, some j⟩ ∧
      (∀ addr a, n.assocs.get? addr = some a → j.StrAt [tx.addr addr, "ID"] (tx.nodeId addr) ∧
        j.StrAt [tx.addr addr, "Addr"] (tx.addr addr) ∧ j.NumAt [tx.addr addr, "NextSessionID"] a.nextSessionID) ∧
      ∀ name, (j.field name).isSome → ∃ addr a, name = tx.addr addr ∧ n.assocs.get? addr = some a := by
  obtain ⟨js, h1, h2, h3⟩ := fields_ok (l := n.assocs.entries) (key := fun e => tx.addr e.1)
    (val := fun e => .struct [("ID", .text (tx.nodeId e.1)), ("Addr", .text (tx.addr e.1)), ("NextSessionID", gnum e.2.nextSessionID)])
    (P := fun e j => j = .obj [("ID", .str (tx.nodeId e.1)), ("Addr", .str (tx.addr e.1)), ("NextSessionID", .num e.2.nextSessionID.toNat)])
    fun e _ => ⟨_, rfl, rfl⟩
  have hn : (js.map Prod.fst).Nodup := by
    rw [h2, show (n.assocs.entries.map fun e => tx.addr e.1) = (n.assocs.entries.map Prod.fst).map tx.addr by rw [List.map_map]; rfl]
    exact n.assocs.nodup.map fun a b e => hi a b e
  refine ⟨.obj (sortFields js), ?_, ?_, ?_⟩
  · simp only [Node.getAssociations, indentedJSON, GoVal.marshal, h1, Option.map_some]
  · intro addr a ha
    obtain ⟨x, hx, rfl⟩ := h3 (addr, a) ((n.assocs.mem_entries_iff addr a).2 ha)
    have hx : (sortFields js).lookup (tx.addr addr) = some _ := (sort_lookup hn _).trans (mem_lookup hn hx)
    refine ⟨?_, ?_, ?_⟩ <;> (simp only [Json.StrAt, Json.NumAt, Json.at, Json.field, hx, Option.bind_some]; rfl)
  · intro name h
    simp only [Json.field, sort_lookup hn] at h
    obtain ⟨x, hx⟩ := Option.isSome_iff_exists.1 h
    have : name ∈ js.map Prod.fst := List.mem_map_of_mem (f := Prod.fst) (lookup_mem hx)
    rw [h2, List.mem_map] at this
    obtain ⟨e, he, rfl⟩ := this
    exact ⟨e.1, e.2, rfl, (n.assocs.mem_entries_iff e.1 e.2).1 he⟩

theorem full_field (tx : Texts) (addr : Addr) (b : Bool) (a : Assoc) : (Assoc.go tx addr b a).marshal = none := by
  obtain ⟨f, hf, -, -⟩ := goMap_ok a.sessions (session_ok tx)
  simp only [Assoc.go, GoVal.marshal, marshalFields, gnum, hf, Option.map_none]

/-- **C89, the full associations.** GET /pfcp_associations/full is documented to give the associations with their sessions. As soon as
one peer is associated it answers 200 with an empty body: the record of an association has a channel, which has no JSON form. -/
theorem C89_full_empty (n : Node) (tx : Texts) (active : Addr → Bool) (h : ∃ addr, (n.assocs.get? addr).isSome) :
    n.getAssociationsFull tx active = ⟨200, none⟩ := by
  obtain ⟨addr, h⟩ := h
  obtain ⟨a, ha⟩ := Option.isSome_iff_exists.1 h
  have he := (n.assocs.mem_entries_iff addr a).2 ha
  simp only [Node.getAssociationsFull, indentedJSON, GoVal.marshal, RestAnswer.mk.injEq, true_and, Option.map_eq_none_iff]
  generalize n.assocs.entries = l at he
  cases he <;> simp only [List.map_cons, marshalFields, full_field]

/-- **C89, the full associations, as documented.** Only of a UPF without associations is the answer what it should be. -/
theorem C89_full_partial (n : Node) (tx : Texts) (active : Addr → Bool) :
    (n.getAssociationsFull tx active).body.isSome ↔ ∀ addr, n.assocs.get? addr = none := by
  constructor
  · intro h addr
    cases ha : n.assocs.get? addr with
    | none => rfl
    | some a => rw [C89_full_empty n tx active ⟨addr, by rw [ha]; rfl⟩] at h; cases h
  · intro h
    cases he : n.assocs.entries with
    | nil => simp [Node.getAssociationsFull, indentedJSON, GoVal.marshal, marshalFields, he]
    | cons e l =>
      have := (n.assocs.mem_entries_iff e.1 e.2).1 (by rw [he]; exact .head _)
      rw [h] at this; cases this

/-! ### a node with sessions -/

/-- texts for the examples -/
def Demo.texts : Texts := ⟨fun a => dec (BitVec.ofNat 64 a), fun _ => "smf", fun _ => "::", fun _ => ""⟩

example : Demo.nEnd.sessionCount ≠ 0 ∧ (∃ addr, (Demo.nEnd.assocs.get? addr).isSome) := by
  have h : (Demo.nEnd.assocs.keys).length ≠ 0 ∧ Demo.nEnd.sessionCount ≠ 0 := by decide +kernel
  refine ⟨h.2, ?_⟩
  cases hk : Demo.nEnd.assocs.keys with
  | nil => rw [hk] at h; exact absurd rfl h.1
  | cons k l => exact ⟨k, (Demo.nEnd.assocs.mem_keys_iff k).1 (by rw [hk]; exact .head _)⟩

end Eupf
