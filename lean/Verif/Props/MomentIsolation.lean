import Verif.MomentKeys
import Verif.Props.AbstractPackets
import Verif.Props.MomentCases
import Verif.Props.AbstractCases
/-
C107: at no moment of a request is the traffic of other sessions disturbed.
-/
namespace Eupf

/-- At every moment of an event not about the session, the session's slots are what the session says. -/
theorem moment_rules {cfg : NodeCfg} {rm : Option ResourceManager} {p f q u : U32} {h : List (Ev × Outcome)} {n : Node}
    (H : HistI (fun n e => e.refsKnown n) (Node.init cfg rm (BpfObjects.load p f q u)) h n) {a : Addr} {s : U64} {x : Session}
    (hx : n.session? a s = some x) {e : Ev} (hr : e.refsKnown n) (hab : ¬ e.about a s) {b : BpfObjects} (hb : n.moment e b) :
    (∀ i fi, x.fars.get? i = some fi → b.far.lookup fi.gid = some fi.info) ∧
    (∀ i qi, x.qers.get? i = some qi → ∃ k, b.qer.lookup qi.gid = some k ∧ k.gateUL = qi.info.gateUL ∧ k.gateDL = qi.info.gateDL ∧
      k.qfi = qi.info.qfi ∧ k.mbrUL = qi.info.mbrUL ∧ k.mbrDL = qi.info.mbrDL) := by
  obtain ⟨h', H', -⟩ := C106_interleaved H
  have S := slots_reach (H'.good fun _ _ h => h)
  obtain ⟨v, sl, hv⟩ := moment_slots S hr hab hb
  rw [hx] at hv
  refine ⟨?_, ?_⟩
  · intro i fi hi
    obtain ⟨h1, -, h2⟩ := sl.far.ok (some (a, s), i) fi.gid fi.info (by simp [ownFar, hv, hi])
    unfold ArrMap.lookup
    rw [if_pos h1, h2]
  · intro i qi hi
    obtain ⟨h1, -, h2⟩ := sl.qer.ok (some (a, s), i) qi.gid qi.info (by simp [ownQer, hv, hi])
    refine ⟨b.qer.val qi.gid, by unfold ArrMap.lookup; rw [if_pos h1], ?_⟩
    have h2 : QerInfo.same (b.qer.val qi.gid) qi.info := h2
    simp only [QerInfo.same, QerInfo.mk.injEq] at h2
    obtain ⟨g1, g2, g3, g4, g5, -⟩ := h2
    simp_all

/-- **C107, tables.** Session `s` of `a` has PDRs with key `K` (not TEID 0) and no other session does. At every moment of an event that is not
about the session and cannot give anybody `K`, the entry of `K` is as before, and the FAR and QER slots of the session are what the session
says (of a QER slot: gates, QFI and bit rates). -/
theorem C107_tables_partial {cfg : NodeCfg} {rm : Option ResourceManager} {p f q u : U32} {h : List (Ev × Outcome)} {n : Node}
    (H : HistI (fun n e => e.refsKnown n) (Node.init cfg rm (BpfObjects.load p f q u)) h n) {a : Addr} {s : U64} {x : Session}
    (hx : n.session? a s = some x) {K : PdrKey} (hK : K ≠ .ul 0) (hoth : ¬ n.usedElsewhere a s K) {e : Ev} (hr : e.refsKnown n)
    (hab : ¬ e.about a s) (hu : Untouched K n e) {b : BpfObjects} (hb : n.moment e b) :
    b.entry? K = n.dp.entry? K ∧
    (∀ i fi, x.fars.get? i = some fi → b.far.lookup fi.gid = some fi.info) ∧
    (∀ i qi, x.qers.get? i = some qi → ∃ k, b.qer.lookup qi.gid = some k ∧ k.gateUL = qi.info.gateUL ∧ k.gateDL = qi.info.gateDL ∧
      k.qfi = qi.info.qfi ∧ k.mbrUL = qi.info.mbrUL ∧ k.mbrDL = qi.info.mbrDL) := by
  exact ⟨moment_entry hK hu.unnamed hu.notChosen hab hoth hb, moment_rules H hx hr hab hb⟩

section
variable {cfg : NodeCfg} {rm : Option ResourceManager} {pz fz qz uz : U32} (hfz : 0 < fz.toNat) (hqz : 0 < qz.toNat)
    (huz : 0 < uz.toNat) {h : List (Ev × Outcome)} {n : Node} (H : HistI Clean (Node.init cfg rm (BpfObjects.load pz fz qz uz)) h n)
    (hb : attempts h < 2 ^ 64 - 2) {a : Addr} {sd : U64} {i : U32} {P : APdr} {F : AFar} {Q : AQer} (hs : Said h a sd i P F Q) (hK : P.key ≠ .ul 0)
    {ev : Ev} (hr : ev.refsKnown n) (hab : ¬ ev.about a sd) (hu : Untouched P.key n ev) {b1 b2 b3 : BpfObjects} (hm1 : n.moment ev b1)
    (hm2 : n.moment ev b2) (hm3 : n.moment ev b3)
include hfz hqz huz H hb hs hK hr hab hu hm1 hm2 hm3

/-- At every moment the tables have what was said, also if the three look-ups of a packet happen at three moments, in any order. -/
theorem moment_told {e : Env} {s : PS} (hdp : s.dp = lookups b1 b2 b3) (hf : FrameFor e s.frame P.key) (hfit : P.fits s.frame) : ToldAt s.dp s.frame P F Q := by
  obtain ⟨h', H', he⟩ := C106_interleaved H
  have hb' : attempts h' < 2 ^ 64 - 2 := by rw [← attempts_plainly h', he, attempts_plainly]; exact hb
  have hs' : Said h' a sd i P F Q := by
    obtain ⟨A, hA, w⟩ := hs.pdr
    exact ⟨A, by rw [← said_plainly h', he, said_plainly]; exact hA, w⟩
  obtain ⟨A, hA, hP, hF, hQ⟩ := hs'.pdr
  have hI := C100_said_partial hfz hqz huz H' a sd
  rw [hA] at hI
  obtain ⟨x, hx, hI⟩ := both_some hI
  have hpd := hI.pdrs i
  rw [hP] at hpd
  obtain ⟨p, hp, hIs⟩ := both_some hpd
  obtain ⟨P', F', Q', f, q, hs2, k1, k2, k3, f1, f2, f3, q1, q2, q3⟩ := said_of hfz hqz huz H' hx hp
  obtain ⟨A', hA', hP', hF', hQ'⟩ := hs2.pdr
  rw [hA] at hA'; cases hA'
  rw [hP] at hP'; cases hP'
  rw [hF] at hF'; cases hF'
  rw [hQ] at hQ'; cases hQ'
  obtain ⟨ex, ap⟩ := exactS_hist hfz hqz huz (H'.mono fun n e (h : Clean n e) => h.orderly) hb'
  have hoth : ¬ n.usedElsewhere a sd P.key := by
    rintro ⟨a', s', x', i', p', hne, hx', hp', hk'⟩
    obtain ⟨rfl, rfl, -⟩ := ap.keys a' s' i' p' a sd i p ⟨x', hx', hp'⟩ ⟨x, hx, hp⟩ (hk'.trans k1)
    exact hne rfl
  have hT := fun {b : BpfObjects} (hm : n.moment ev b) =>
    C107_tables_partial (C106_as_a_whole (H'.mono fun n e (h : Clean n e) => h.tidy.known)) hx hK hoth hr hab hu hm
  have t1 := (hT hm1).1
  have t2 := (hT hm2).2.1
  have t3 := (hT hm3).2.2
  have t2 := t2 P.far f f1
  obtain ⟨k, t3, d2, d3, d4, d5, d6⟩ := t3 P.qer q q1
  rw [hdp]
  refine ⟨p.info.rule, f.info, k, ?_, k3.symm, by show b2.far.lookup p.info.farId = _; rw [← f3]; exact t2, f2, by show b3.qer.lookup p.info.qerId = _; rw [← q3]; exact t3, ?_⟩
  · refine frameRule_fits ?_ hf.keyOf ?_
    · have t0 : (lookups b1 b2 b3).entry? P.key = b1.entry? P.key := by cases P.key <;> rfl
      rw [t0, t1, k1]; exact ex.live a sd i p ⟨x, hx, hp⟩
    · intro sdf hsd; rw [← k2] at hsd; exact hfit sdf hsd
  · exact ⟨by rw [d2]; exact q2.gateUL, by rw [d3]; exact q2.gateDL, by rw [d5]; exact q2.mbrUL, by rw [d6]; exact q2.mbrDL, by rw [d4]; exact q2.qfi⟩

/-- **C107, downlink.** A downlink frame that a session was told to forward, without rate limit, and that is processed while an event about other
sessions is, its three look-ups at any three moments of it, leaves in the tunnel last told. -/
theorem C107_downlink_partial (e : Env) (s : PS) (hdp : s.dp = lookups b1 b2 b3) (hf : FrameFor e s.frame P.key) (hdl : ∀ t, P.key ≠ .ul t) (hfit : P.fits s.frame)
    (hl : Lets P F Q) (hmbr : Q.mbrDL = 0) (hroom : e.headroom ≠ none) :
    ∃ s' fib len, runPacket e s = (s', .ok (routeAct e (e.fib fib))) ∧ fib.dst = slice s'.frame 30 4 ∧
      len = (match P.key with | .dl6 _ => be16 s.frame 18 + 40 | _ => be16 s.frame 16) ∧
      IsTunnelled ⟨e.n3Ip, F.peer, F.tos, Q.qfi, F.teid⟩ len (s.frame.drop 14) s'.frame :=
  told_downlink e s (moment_told hfz hqz huz H hb hs hK hr hab hu hm1 hm2 hm3 hdp hf hfit) hf hdl hl hmbr hroom

/-- **C107, uplink.** In the same situation a G-PDU (as in `C28_forwarded_partial`) that a session was told to
decapsulate and forward leaves as its payload. -/
theorem C107_uplink_partial (e : Env) (s : PS) (hdp : s.dp = lookups b1 b2 b3) {t : U32} (hk : P.key = .ul t) (hg : IsGtpMsg e s.frame 255) (ht : gtpTeid s.frame = t)
    (hfit : P.fits s.frame) (hl : Lets P F Q) (hnt : ¬ F.tunnels) (hohr : P.ohr = 0) (hmbr : Q.mbrUL = 0)
    (h34 : l4Off s.frame = 34) {o : Nat} (hpay : PayloadAt s.frame o) (ho : o = gtpOff s.frame + 8 ∨ o = gtpOff s.frame + 16)
    (hin2 : ((oct s.frame o).toNat / 16 = 4 ∧ o + 20 ≤ s.frame.length) ∨ ((oct s.frame o).toNat / 16 = 6 ∧ o + 40 ≤ s.frame.length))
    (hself : ¬ ((oct s.frame o).toNat / 16 = 4 ∧ oct s.frame (o + 9) = 1 ∧ (be32 s.frame (o + 16) = e.n3Ip ∨ be32 s.frame (o + 16) = e.n9Ip))) :
    ∃ s' fib m ty, runPacket e s = (s', .ok (routeAct e (e.fib fib))) ∧ m.length = 12 ∧ etherTypeOf (s.frame.drop o) = some ty ∧
      s'.frame = m ++ ty ++ s.frame.drop o ∧
      fib.dst = if (oct s.frame o).toNat / 16 = 4 then slice s.frame (o + 16) 4 else slice s.frame (o + 24) 16 :=
  told_uplink e s (moment_told hfz hqz huz H hb hs hK hr hab hu hm1 hm2 hm3 hdp (by rw [hk]; exact ⟨hg, ht⟩) hfit) hk hg hl hnt hohr hmbr h34 hpay ho hin2 hself

/-- **C107, stopped traffic** is dropped in the same situation. -/
theorem C107_stopped_partial (e : Env) (s : PS) (hdp : s.dp = lookups b1 b2 b3) (hf : FrameFor e s.frame P.key) (hfit : P.fits s.frame) (hno : ¬ Lets P F Q) :
    ∃ s', runPacket e s = (s', .ok .drop) ∧ s'.frame = s.frame ∧ s'.dp = s.dp :=
  told_stopped e s (moment_told hfz hqz huz H hb hs hK hr hab hu hm1 hm2 hm3 hdp hf hfit) hf hno

end

theorem Demo.ips107 : (0x0A3C0001 : Ip4) ∉ freeIps Demo.nEnd98.rm := by decide +kernel

theorem Demo.est107 : ¬ (Ev.establish 2 (Demo.est 200)).names (.dl4 0x0A3C0001) := by
  rintro ⟨ie, hie, pdi, u, h1, h2, h3, h4⟩
  simp only [Demo.est, List.mem_cons, List.not_mem_nil, or_false] at hie
  rcases hie with rfl | rfl
  · cases h1; cases h2
  · cases h1; cases h3; cases h4

/-- C107_downlink_partial on the history of `Demo.hist100`: while peer 2 establishes a session, its look-ups at any moments of it, a packet to 10.60.0.1 goes to
192.168.0.1 with TEID 77. -/
example (n : Node) (hn0 : n = Demo.nEnd98) (b1 b2 b3 : BpfObjects) (hm1 : n.moment (.establish 2 (Demo.est 200)) b1)
    (hm2 : n.moment (.establish 2 (Demo.est 200)) b2) (hm3 : n.moment (.establish 2 (Demo.est 200)) b3) :
    ∃ s' fib, runPacket DemoDp.env ⟨DemoDp.down, lookups b1 b2 b3, {}, {}⟩ = (s', .ok (routeAct DemoDp.env (DemoDp.env.fib fib))) ∧
      IsTunnelled ⟨0x0A00030A, 0xC0A80001, 0, 9, 77⟩ 32 (DemoDp.down.drop 14) s'.frame := by
  obtain ⟨h, H, hb⟩ := Demo.hist100
  have hs := Demo.said_dl h
  have hl : be16 DemoDp.down 16 = 32 := by decide
  have hn : DemoDp.env.n3Ip = 0x0A00030A := by decide
  have ht : AFar.tos ⟨2, 0x0100, 77, 0xC0A80001, 0⟩ = 0 := by decide
  have hf := Demo.down_for
  have hr : DemoDp.env.headroom ≠ none := by decide
  have hi := Demo.ips107
  rw [← hn0] at H hi
  clear hn0
  generalize DemoDp.down = f at hl hf ⊢
  generalize DemoDp.env = e at hn hf hr ⊢
  obtain ⟨s', fib, len, h1, -, h3, h4⟩ := C107_downlink_partial (fz := 4) (qz := 4) (uz := 4) (by decide) (by decide) (by decide) (C106_as_a_whole H) (by rw [hb]; decide)
    hs (by intro h; cases h) (ev := .establish 2 (Demo.est 200)) (by trivial) (by intro h; exact h)
    ⟨Demo.est107, fun _ => hi⟩ hm1 hm2 hm3 e ⟨f, lookups b1 b2 b3, {}, {}⟩ rfl hf (by intro t h; cases h) (by intro sdf h; cases h)
    ⟨by unfold AFar.forwards; decide, by show (0 : U8) = 0; rfl, fun _ => by unfold AFar.tunnels; decide⟩ rfl hr
  have h3' : len = be16 f 16 := h3
  rw [h3', hl, hn, ht] at h4
  exact ⟨s', fib, h1, h4⟩

end Eupf
