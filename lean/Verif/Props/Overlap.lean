import Verif.Props.MomentIsolation
/-
C108: a packet whose look-ups are spread over several requests.
-/
namespace Eupf

/-- An event that is not about the session leaves its record alone. -/
theorem session_kept {n : Node} {e : Ev} {a : Addr} {s : U64} (hfresh : ∀ as, n.assocs.get? a = some as → s ≠ as.nextSessionID + 1)
    (hab : ¬ e.about a s) : (n.step e).1.session? a s = n.session? a s := by
  cases e with
  | establish addr r =>
    refine (C05_isolation n addr a s).1 r fun as ha h => ?_
    cases h
    exact hfresh as ha rfl
  | modify addr r o => exact (C05_isolation n addr a s).2.1 r o fun h => hab (by cases h; exact ⟨rfl, rfl⟩)
  | delete addr r o => exact (C05_isolation n addr a s).2.2 r o fun h => hab (by cases h; exact ⟨rfl, rfl⟩)
  | peerLost addr ord =>
    have hne : addr ≠ a := hab
    simp only [Node.step, Node.deleteAssociation]
    cases ha : n.assocs.get? addr with
    | none => rfl
    | some as =>
      simp only
      rcases hd : dropSessions ord (ord.sessions.run as.sessions.entries) n.rm n.dp with ⟨rm, dp, b⟩
      cases b with
      | false => rfl
      | true =>
        simp only [Node.session?, GoMap.get?_erase]
        rw [if_neg (fun h => hne h.symm)]
  | setConfig u => rfl
  | assocSetup x y z w => exact (C05_association_messages n a s _ rfl).1
  | assocSetupResp x y z w => exact (C05_association_messages n a s _ rfl).1
  | assocUpdate x y z => exact (C05_association_messages n a s _ rfl).1
  | heartbeatReq x y z => exact (C05_association_messages n a s _ rfl).1
  | heartbeatResp x y z => exact (C05_association_messages n a s _ rfl).1

/-- Over any number of such events. -/
theorem session_kept_hist {cfg : NodeCfg} {rm : Option ResourceManager} {dp : BpfObjects} {h1 : List (Ev × Outcome)} {n1 : Node}
    (H1 : Hist (Node.init cfg rm dp) h1 n1) {a : Addr} {s : U64} {x : Session} (hx : n1.session? a s = some x) {P : Node → Ev → Prop}
    (hP : ∀ n e, P n e → ¬ e.about a s) {h2 : List (Ev × Outcome)} {n2 : Node} (H2 : HistP P n1 h2 n2) (hb : attempts (h2 ++ h1) < 2 ^ 64 - 2) :
    n2.session? a s = some x := by
  induction H2 with
  | init => exact hx
  | @step h n e H hp hc ih =>
    have hb' : attempts (h ++ h1) < 2 ^ 64 - 2 := by
      have := attempts_cons (e, (n.step e).2) (h ++ h1)
      rw [List.cons_append] at hb; omega
    have i := ih hb'
    have L := linv_hist (H1.append H.hist) hb'
    exact (session_kept (L.fresh hb' (by rw [i]; simp)) (hP _ _ hp)).trans i
  | traffic _ _ ih => exact ih hb

/-- The event keeps to the rules of C99 and is not about session `s` of `a`. -/
structure CleanElsewhere (a : Addr) (s : U64) (n : Node) (e : Ev) : Prop where
  clean : Clean n e
  other : ¬ e.about a s

section
variable {cfg : NodeCfg} {rm : Option ResourceManager} {pz fz qz uz : U32} (hfz : 0 < fz.toNat) (hqz : 0 < qz.toNat)
    (huz : 0 < uz.toNat) {h1 h2 h3 : List (Ev × Outcome)} {n1 n2 n3 : Node} (H1 : HistI Clean (Node.init cfg rm (BpfObjects.load pz fz qz uz)) h1 n1)
    {a : Addr} {sd : U64} {i : U32} {P : APdr} {F : AFar} {Q : AQer} (hs : Said h1 a sd i P F Q) (hK : P.key ≠ .ul 0)
    (H2 : HistI (CleanElsewhere a sd) n1 h2 n2) (H3 : HistI (CleanElsewhere a sd) n2 h3 n3) (hb : attempts (h3 ++ (h2 ++ h1)) < 2 ^ 64 - 2)
    {e1 e2 e3 : Ev} (hr1 : e1.refsKnown n1) (hab1 : ¬ e1.about a sd) (hu : Untouched P.key n1 e1) (hr2 : e2.refsKnown n2) (hab2 : ¬ e2.about a sd)
    (hr3 : e3.refsKnown n3) (hab3 : ¬ e3.about a sd) {b1 b2 b3 : BpfObjects} (hm1 : n1.moment e1 b1) (hm2 : n2.moment e2 b2) (hm3 : n3.moment e3 b3)
include hfz hqz huz H1 hb hs hK H2 H3 hr1 hab1 hu hr2 hab2 hr3 hab3 hm1 hm2 hm3

/-- The three look-ups find what was said. -/
theorem overlap_told {e : Env} {s : PS} (hdp : s.dp = lookups b1 b2 b3) (hf : FrameFor e s.frame P.key) (hfit : P.fits s.frame) :
    ToldAt s.dp s.frame P F Q := by
  obtain ⟨h1', H1', he⟩ := C106_interleaved H1
  obtain ⟨h2', H2', he2⟩ := C106_interleaved H2
  obtain ⟨h3', H3', he3⟩ := C106_interleaved H3
  have hat : ∀ {l l' : List (Ev × Outcome)}, plainly l' = plainly l → attempts l' = attempts l := by
    intro l l' h; rw [← attempts_plainly l', h, attempts_plainly]
  have hb3 : attempts (h3' ++ (h2' ++ h1')) < 2 ^ 64 - 2 := by
    rw [attempts_append, attempts_append, hat he, hat he2, hat he3, ← attempts_append, ← attempts_append]; exact hb
  have hb2 : attempts (h2' ++ h1') < 2 ^ 64 - 2 := by rw [attempts_append] at hb3; omega
  have hb1 : attempts h1' < 2 ^ 64 - 2 := by rw [attempts_append] at hb2; omega
  have hs' : Said h1' a sd i P F Q := by
    obtain ⟨A, hA, w⟩ := hs.pdr
    exact ⟨A, by rw [← said_plainly h1', he, said_plainly]; exact hA, w⟩
  obtain ⟨A, hA, hP, hF, hQ⟩ := hs'.pdr
  have hI := C100_said_partial hfz hqz huz H1' a sd
  rw [hA] at hI
  obtain ⟨x, hx, hI⟩ := both_some hI
  have hpd := hI.pdrs i
  rw [hP] at hpd
  obtain ⟨p, hp, hIs⟩ := both_some hpd
  obtain ⟨P', F', Q', f, q, hs2, k1, k2, k3, f1, f2, f3, q1, q2, q3⟩ := said_of hfz hqz huz H1' hx hp
  obtain ⟨A', hA', hP', hF', hQ'⟩ := hs2.pdr
  rw [hA] at hA'; cases hA'
  rw [hP] at hP'; cases hP'
  rw [hF] at hF'; cases hF'
  rw [hQ] at hQ'; cases hQ'
  obtain ⟨ex, ap⟩ := exactS_hist hfz hqz huz (H1'.mono fun n e (h : Clean n e) => h.orderly) hb1
  have hoth : ¬ n1.usedElsewhere a sd P.key := by
    rintro ⟨a', s', x', i', p', hne, hx', hp', hk'⟩
    obtain ⟨rfl, rfl, -⟩ := ap.keys a' s' i' p' a sd i p ⟨x', hx', hp'⟩ ⟨x, hx, hp⟩ (hk'.trans k1)
    exact hne rfl
  have hx2 : n2.session? a sd = some x := session_kept_hist H1'.hist hx (fun n e (h : CleanElsewhere a sd n e) => h.other) H2' hb2
  have HH2 := H1'.append (H2'.mono fun n e (h : CleanElsewhere a sd n e) => h.clean)
  have hx3 : n3.session? a sd = some x := session_kept_hist HH2.hist hx2 (fun n e (h : CleanElsewhere a sd n e) => h.other) H3' hb3
  have HH3 := HH2.append (H3'.mono fun n e (h : CleanElsewhere a sd n e) => h.clean)
  have t1 := moment_entry hK hu.unnamed hu.notChosen hab1 hoth hm1
  have t2 := (moment_rules (C106_as_a_whole (HH2.mono fun n e (h : Clean n e) => h.tidy.known)) hx2 hr2 hab2 hm2).1 P.far f f1
  obtain ⟨k, t3, d2, d3, d4, d5, d6⟩ := (moment_rules (C106_as_a_whole (HH3.mono fun n e (h : Clean n e) => h.tidy.known)) hx3 hr3 hab3 hm3).2 P.qer q q1
  rw [hdp]
  refine ⟨p.info.rule, f.info, k, ?_, k3.symm, by show b2.far.lookup p.info.farId = _; rw [← f3]; exact t2, f2, by show b3.qer.lookup p.info.qerId = _; rw [← q3]; exact t3, ?_⟩
  · refine frameRule_fits ?_ hf.keyOf ?_
    · have t0 : (lookups b1 b2 b3).entry? P.key = b1.entry? P.key := by cases P.key <;> rfl
      rw [t0, t1, k1]; exact ex.live a sd i p ⟨x, hx, hp⟩
    · intro sdf hsd; rw [← k2] at hsd; exact hfit sdf hsd
  · exact ⟨by rw [d2]; exact q2.gateUL, by rw [d3]; exact q2.gateDL, by rw [d5]; exact q2.mbrUL, by rw [d6]; exact q2.mbrDL, by rw [d4]; exact q2.qfi⟩

/-- **C108, downlink.** The PDR is looked up at any moment of an event `e1`, the FAR at any moment of a later event `e2`, the QER at any moment of
a still later `e3`, with any number of events in between, all about other sessions: a downlink frame that the session was told to forward,
without rate limit, leaves in the tunnel told. -/
theorem C108_downlink_partial (e : Env) (s : PS) (hdp : s.dp = lookups b1 b2 b3) (hf : FrameFor e s.frame P.key) (hdl : ∀ t, P.key ≠ .ul t)
    (hfit : P.fits s.frame) (hl : Lets P F Q) (hmbr : Q.mbrDL = 0) (hroom : e.headroom ≠ none) :
    ∃ s' fib len, runPacket e s = (s', .ok (routeAct e (e.fib fib))) ∧ fib.dst = slice s'.frame 30 4 ∧
      len = (match P.key with | .dl6 _ => be16 s.frame 18 + 40 | _ => be16 s.frame 16) ∧
      IsTunnelled ⟨e.n3Ip, F.peer, F.tos, Q.qfi, F.teid⟩ len (s.frame.drop 14) s'.frame :=
  told_downlink e s (overlap_told hfz hqz huz H1 hs hK H2 H3 hb hr1 hab1 hu hr2 hab2 hr3 hab3 hm1 hm2 hm3 hdp hf hfit) hf hdl hl hmbr hroom

/-- **C108, uplink.** In the same situation a G-PDU (as in `C28_forwarded_partial`) that a session was told to decapsulate and forward leaves as
its payload. -/
theorem C108_uplink_partial (e : Env) (s : PS) (hdp : s.dp = lookups b1 b2 b3) {t : U32} (hk : P.key = .ul t) (hg : IsGtpMsg e s.frame 255)
    (ht : gtpTeid s.frame = t) (hfit : P.fits s.frame) (hl : Lets P F Q) (hnt : ¬ F.tunnels) (hohr : P.ohr = 0) (hmbr : Q.mbrUL = 0)
    (h34 : l4Off s.frame = 34) {o : Nat} (hpay : PayloadAt s.frame o) (ho : o = gtpOff s.frame + 8 ∨ o = gtpOff s.frame + 16)
    (hin2 : ((oct s.frame o).toNat / 16 = 4 ∧ o + 20 ≤ s.frame.length) ∨ ((oct s.frame o).toNat / 16 = 6 ∧ o + 40 ≤ s.frame.length))
    (hself : ¬ ((oct s.frame o).toNat / 16 = 4 ∧ oct s.frame (o + 9) = 1 ∧ (be32 s.frame (o + 16) = e.n3Ip ∨ be32 s.frame (o + 16) = e.n9Ip))) :
    ∃ s' fib m ty, runPacket e s = (s', .ok (routeAct e (e.fib fib))) ∧ m.length = 12 ∧ etherTypeOf (s.frame.drop o) = some ty ∧
      s'.frame = m ++ ty ++ s.frame.drop o ∧
      fib.dst = if (oct s.frame o).toNat / 16 = 4 then slice s.frame (o + 16) 4 else slice s.frame (o + 24) 16 :=
  told_uplink e s (overlap_told hfz hqz huz H1 hs hK H2 H3 hb hr1 hab1 hu hr2 hab2 hr3 hab3 hm1 hm2 hm3 hdp (by rw [hk]; exact ⟨hg, ht⟩) hfit)
    hk hg hl hnt hohr hmbr h34 hpay ho hin2 hself

/-- **C108, stopped traffic** is dropped in the same situation. -/
theorem C108_stopped_partial (e : Env) (s : PS) (hdp : s.dp = lookups b1 b2 b3) (hf : FrameFor e s.frame P.key) (hfit : P.fits s.frame)
    (hno : ¬ Lets P F Q) : ∃ s', runPacket e s = (s', .ok .drop) ∧ s'.frame = s.frame ∧ s'.dp = s.dp :=
  told_stopped e s (overlap_told hfz hqz huz H1 hs hK H2 H3 hb hr1 hab1 hu hr2 hab2 hr3 hab3 hm1 hm2 hm3 hdp hf hfit) hf hno

end

end Eupf
