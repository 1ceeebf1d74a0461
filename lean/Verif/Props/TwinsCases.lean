import Verif.Props.Twins
import Verif.Props.AbstractCases
/-
C115: concrete cases.
-/
namespace Eupf

theorem said_empty {h : List (Ev × Outcome)} (hb : attempts h = 0) (a : Addr) (s : U64) : said h a s = none := by
  induction h with
  | nil => rfl
  | cons x h ih =>
    obtain ⟨e, o⟩ := x
    cases e with
    | establish b r =>
      have hb : attempts h + 1 = 0 := hb
      omega
    | modify b r ord =>
      have hb : attempts h = 0 := hb
      cases o with
      | reply resp =>
        simp only [said, ih hb]
        split <;> rfl
      | silent => exact ih hb
      | crash => exact ih hb
    | delete b r ord =>
      have hb : attempts h = 0 := hb
      cases o with
      | reply resp =>
        simp only [said, ih hb]
        split <;> rfl
      | silent => exact ih hb
      | crash => exact ih hb
    | peerLost b ord =>
      have hb : attempts h = 0 := hb
      have : said ((Ev.peerLost b ord, o) :: h) a s = if a = b then none else said h a s := by cases o <;> rfl
      rw [this, ih hb]; split <;> rfl
    | _ =>
      have hb : attempts h = 0 := hb
      cases o <;> exact ih hb

/-- Another UPF: larger tables, no pools; another peer, and the session established at once, with other ids. -/
def Demo.est115 : EstReq :=
  { seq := 70, nodeId := some (some ()), cpFseid := some (some 900),
    createFar := [{ kind := .create, farId := some 12, applyAction := some [2], forward := some (some (some ⟨0x0100, 77, some 0xC0A80001, false⟩)) },
                  { kind := .create, farId := some 11, applyAction := some [2] }],
    createQer := [{ qerId := some 5, qfi := some 9 }, { qerId := some 6, qfi := some 9 }],
    createPdr := [{ pdrId := some 20, farId := some 12, qerId := some 5, pdi := some { ueip := some (some { ipv4 := some 0x0A3C0001 }) } },
                  { pdrId := some 21, farId := some 11, qerId := some 6, ohr := some 0, pdi := some { fteid := some (some ⟨0x301, false, none⟩) } }] }
def Demo.n115 : Node := Node.init Demo.cfg none (BpfObjects.load 16 8 8 8)
def Demo.n115a : Node := (Demo.n115.step (.assocSetup 5 1 (some (some ())) (some (some ())))).1
def Demo.n115b : Node := (Demo.n115a.step (.establish 5 Demo.est115)).1
def Demo.resp115 : Resp := { type := .establishment, seid := 900, seq := 70, cause := 1, fseid := some 2 }

theorem Demo.est115_step : Demo.n115a.step (.establish 5 Demo.est115) = (Demo.n115b, .reply Demo.resp115) := by
  have : (Demo.n115a.step (.establish 5 Demo.est115)).2 = .reply Demo.resp115 := by decide +kernel
  exact Prod.ext (by simp only [Demo.n115b]) this
theorem Demo.est115_own : ∀ ie ∈ Demo.est115.createPdr, (∃ i, ie.farId = some i ∧ ∃ c ∈ Demo.est115.createFar, c.farId.getD 0 = i) ∧
    ∃ i, ie.qerId = some i ∧ ∃ c ∈ Demo.est115.createQer, c.qerId = some i := by
  intro ie hie
  simp only [Demo.est115, List.mem_cons, List.not_mem_nil, or_false] at hie
  rcases hie with rfl | rfl
  · exact ⟨⟨12, rfl, Demo.est115.createFar[0], by simp [Demo.est115], rfl⟩, 5, rfl, Demo.est115.createQer[0], by simp [Demo.est115], rfl⟩
  · exact ⟨⟨11, rfl, Demo.est115.createFar[1], by simp [Demo.est115], rfl⟩, 6, rfl, Demo.est115.createQer[1], by simp [Demo.est115], rfl⟩
theorem Demo.one115 : ∃ h, HistP Clean Demo.n115 h Demo.n115a ∧ attempts h = 0 := by
  have s1 := HistP.step (P := Clean) (n0 := Demo.n115) (.assocSetup 5 1 (some (some ())) (some (some ()))) .init (clean_other (by simp) (by simp)
    (orderly_other (by simp) (by simp) (by simp) (no73_of (by decide +kernel)) (by decide +kernel) (by decide +kernel))) (by decide +kernel)
  exact ⟨_, s1, by simp [attempts]⟩
theorem Demo.hist115 : ∃ h, attempts h = 0 ∧ HistP Clean Demo.n115 ((.establish 5 Demo.est115, .reply Demo.resp115) :: h) Demo.n115b := by
  obtain ⟨h, s1, hb⟩ := Demo.one115
  have s2 := HistP.snoc s1 (clean_establish (orderly_establish (a := 5) (r := Demo.est115) (by decide) (by decide +kernel) (by decide +kernel) (by decide +kernel))
    (by decide) (by decide) (by decide) Demo.est115_own) Demo.est115_step
  exact ⟨h, hb, s2⟩

/-- The two rules. -/
def Demo.rules115 (k : PdrKey) (ohr : U8) (sdf : Option SdfFilter) (F : AFar) (Q : AQer) : Prop :=
  (k = .dl4 0x0A3C0001 ∧ ohr = 0 ∧ sdf = none ∧ F = ⟨2, 0x0100, 77, 0xC0A80001, 0⟩ ∧ Q = ⟨0, 0, 0, 0, 9⟩) ∨
  (k = .ul 0x301 ∧ ohr = 0 ∧ sdf = none ∧ F = ⟨2, 0, 0, 0, 0⟩ ∧ Q = ⟨0, 0, 0, 0, 9⟩)

theorem Demo.pdrs115 (i : U32) : (ASession.established Demo.est115 []).pdrs i =
    if i = 21 then some ⟨.ul 0x301, 0, none, 11, 6⟩ else if i = 20 then some ⟨.dl4 0x0A3C0001, 0, none, 12, 5⟩ else none := by
  simp only [ASession.established, Demo.est115, List.foldl, ASession.createPdr, ASession.createFar, ASession.createQer, withAt]
  rfl
theorem Demo.tells115 {h : List (Ev × Outcome)} (hb : attempts h = 0) (k : PdrKey) (ohr : U8) (sdf : Option SdfFilter) (F : AFar) (Q : AQer) :
    Tells ((.establish 5 Demo.est115, .reply Demo.resp115) :: h) k ohr sdf F Q ↔ Demo.rules115 k ohr sdf F Q := by
  have hs : ∀ a s, said ((.establish 5 Demo.est115, .reply Demo.resp115) :: h) a s = if a = 5 ∧ s = 2 then some (ASession.established Demo.est115 []) else none := by
    intro a s
    simp only [said, said_empty hb]
    by_cases h1 : a = 5 ∧ s = 2
    · obtain ⟨rfl, rfl⟩ := h1
      simp [Demo.resp115]
    · rw [if_neg h1, if_neg]
      rintro ⟨-, g1, g2⟩
      exact h1 ⟨g1, by cases g2; rfl⟩
  constructor
  · rintro ⟨a, s, i, P, ⟨x, h1, h2, h3, h4⟩, rfl, rfl, rfl⟩
    rw [hs] at h1
    split at h1
    · cases h1
      rw [Demo.pdrs115] at h2
      split at h2
      · cases h2
        cases h3; cases h4
        exact .inr ⟨rfl, rfl, rfl, rfl, rfl⟩
      · split at h2
        · cases h2
          cases h3; cases h4
          exact .inl ⟨rfl, rfl, rfl, rfl, rfl⟩
        · cases h2
    · cases h1
  · rintro (⟨rfl, rfl, rfl, rfl, rfl⟩ | ⟨rfl, rfl, rfl, rfl, rfl⟩)
    · exact ⟨5, 2, 20, _, ⟨_, hs 5 2, Demo.pdrs115 20, rfl, rfl⟩, rfl, rfl, rfl⟩
    · exact ⟨5, 2, 21, _, ⟨_, hs 5 2, Demo.pdrs115 21, rfl, rfl⟩, rfl, rfl, rfl⟩

theorem Demo.pdrs100 {i : U32} (h2 : i ≠ 2) (h3 : i ≠ 3) : Demo.told100.pdrs i = none := by
  by_cases h1 : i = 1
  · subst h1; exact Demo.pdr100.2.2.1
  · simp [Demo.told100, ASession.modified, ASession.established, Demo.svc, Demo.mod98, ASession.createPdr, ASession.updatePdr, ASession.removePdr, ASession.createFar,
      ASession.updateFar, ASession.removeFar, ASession.createQer, ASession.updateQer, ASession.removeQer, withAt, h1, h2, h3]
    intro _
    simp only [show ¬ i = 2#32 from h2, show ¬ i = 3#32 from h3, show ¬ i = 1#32 from h1, if_false, Option.map_none]
theorem Demo.tells100 {h : List (Ev × Outcome)} (hb : attempts h = 0) (k : PdrKey) (ohr : U8) (sdf : Option SdfFilter) (F : AFar) (Q : AQer) :
    Tells (Demo.list100 h) k ohr sdf F Q ↔ Demo.rules115 k ohr sdf F Q := by
  have hs : ∀ a s, said (Demo.list100 h) a s = if a = 1 ∧ s = 2 then some Demo.told100 else none := by
    intro a s
    by_cases h1 : a = 1 ∧ s = 2
    · obtain ⟨rfl, rfl⟩ := h1
      exact Demo.said100 h
    · rw [if_neg h1]
      by_cases h2 : a = 2 ∧ s = 2
      · obtain ⟨rfl, rfl⟩ := h2
        exact Demo.said100_deleted h
      · have e1 : ¬ (a = 1 ∧ (2 : U64) = s) := fun hx => h1 ⟨hx.1, hx.2.symm⟩
        have e2 : ¬ (a = 2 ∧ (2 : U64) = s) := fun hx => h2 ⟨hx.1, hx.2.symm⟩
        simp only [Demo.list100, said, said_empty hb, Demo.mod98, Demo.svcResp, Option.some.injEq, h1, h2, e1, e2, and_false, if_false]
  constructor
  · rintro ⟨a, s, i, P, ⟨x, h1, h2, h3, h4⟩, rfl, rfl, rfl⟩
    rw [hs] at h1
    split at h1
    · cases h1
      by_cases i2 : i = 2
      · subst i2
        rw [Demo.pdr100.1] at h2; cases h2
        cases h3; cases h4
        exact .inl ⟨rfl, rfl, rfl, rfl, rfl⟩
      · by_cases i3 : i = 3
        · subst i3
          rw [Demo.pdr100.2.1] at h2; cases h2
          cases h3; cases h4
          exact .inr ⟨rfl, rfl, rfl, rfl, rfl⟩
        · rw [Demo.pdrs100 i2 i3] at h2; cases h2
    · cases h1
  · rintro (⟨rfl, rfl, rfl, rfl, rfl⟩ | ⟨rfl, rfl, rfl, rfl, rfl⟩)
    · exact ⟨1, 2, 2, _, Demo.said_dl h, rfl, rfl, rfl⟩
    · exact ⟨1, 2, 3, _, Demo.said_ul h, rfl, rfl, rfl⟩

/-- C115_same_partial: whatever arrives meets the same fate at the UPF of `Demo.hist100` (two peers, two sessions, a modification, a deletion) and at the
other UPF, although their tables and slots differ. -/
theorem Demo.twins115 (e : Env) (s t : PS) (hs : s.dp = Demo.nEnd98.dp) (ht : t.dp = Demo.n115b.dp) (hf : s.frame = t.frame) :
    (runPacket e s).2 = (runPacket e t).2 ∧ ((runPacket e s).2 ≠ .ok .aborted → (runPacket e s).1.frame = (runPacket e t).1.frame) := by
  obtain ⟨h, H, b⟩ := Demo.hist100
  obtain ⟨h', b', H'⟩ := Demo.hist115
  have b0 : attempts h + 1 + 1 = 2 := b
  have b1 : attempts ((.establish 5 Demo.est115, .reply Demo.resp115) :: h') = 1 := by show attempts h' + 1 = 1; rw [b']
  have t1 := Demo.tells100 (h := h) (by omega)
  have t2 := Demo.tells115 b'
  generalize Demo.nEnd98 = n at H hs
  generalize Demo.n115b = n' at H' ht
  generalize Demo.list100 h = hh at H b t1
  generalize ((.establish 5 Demo.est115, .reply Demo.resp115) :: h' : List (Ev × Outcome)) = hh' at H' b1 t2
  refine C115_same_partial (fz := 4) (qz := 4) (uz := 4) (by decide) (by decide) (by decide) H (by rw [b]; decide)
    (fz' := 8) (qz' := 8) (uz' := 8) (by decide) (by decide) (by decide) H' (by rw [b1]; decide) (fun k ohr sdf F Q => (t1 k ohr sdf F Q).trans (t2 k ohr sdf F Q).symm) ?_ e s t hs ht hf
  intro k ohr sdf F Q hT
  rcases (t1 k ohr sdf F Q).1 hT with ⟨rfl, -, -, -, rfl⟩ | ⟨rfl, -, -, -, rfl⟩ <;> exact rfl
/-- C115_sequence_partial: the same for any sequence of frames. -/
example (d d' : Dev) (hs : d.dp = Demo.nEnd98.dp) (ht : d'.dp = Demo.n115b.dp) (l : List (Env × List U8)) : (d.run l).2 = (d'.run l).2 := by
  obtain ⟨h, H, b⟩ := Demo.hist100
  obtain ⟨h', b', H'⟩ := Demo.hist115
  have b0 : attempts h + 1 + 1 = 2 := b
  have b1 : attempts ((.establish 5 Demo.est115, .reply Demo.resp115) :: h') = 1 := by show attempts h' + 1 = 1; rw [b']
  have t1 := Demo.tells100 (h := h) (by omega)
  have t2 := Demo.tells115 b'
  generalize Demo.nEnd98 = n at H hs
  generalize Demo.n115b = n' at H' ht
  generalize Demo.list100 h = hh at H b t1
  generalize ((.establish 5 Demo.est115, .reply Demo.resp115) :: h' : List (Ev × Outcome)) = hh' at H' b1 t2
  refine C115_sequence_partial (fz := 4) (qz := 4) (uz := 4) (by decide) (by decide) (by decide) H (by rw [b]; decide)
    (fz' := 8) (qz' := 8) (uz' := 8) (by decide) (by decide) (by decide) H' (by rw [b1]; decide) (fun k ohr sdf F Q => (t1 k ohr sdf F Q).trans (t2 k ohr sdf F Q).symm) ?_ d d' hs ht l
  intro k ohr sdf F Q hT
  rcases (t1 k ohr sdf F Q).1 hT with ⟨rfl, -, -, -, rfl⟩ | ⟨rfl, -, -, -, rfl⟩ <;> exact rfl
/-- In particular the packets of `DemoDp` that are sent at one are sent at the other; the tables differ. -/
example : (runPacket DemoDp.env ⟨Demo.up98, Demo.nEnd98.dp, {}, {}⟩).2 = .ok (.redirect 7) ∧ (runPacket DemoDp.env ⟨Demo.up98, Demo.n115b.dp, {}, {}⟩).2 = .ok (.redirect 7) ∧
    Demo.nEnd98.dp.entry? (.ul 0x301) ≠ Demo.n115b.dp.entry? (.ul 0x301) := by decide +kernel

/-! ### map iteration orders -/

def Shuffle.backwards {α : Type} : Shuffle α := ⟨List.reverse, fun l => List.reverse_perm l⟩
def Demo.backwards : Orders := ⟨.backwards, .backwards, .backwards, .backwards, .backwards, .backwards⟩
/-- The last deletion goes through the maps backwards. -/
def Demo.nEndB : Node := (Demo.nMod98.step (.delete 2 ⟨2, 9⟩ Demo.backwards)).1
theorem Demo.delB_out : (Demo.nMod98.step (.delete 2 ⟨2, 9⟩ Demo.backwards)).2 =
    .reply { type := .deletion, seid := 200, seq := 9, cause := 1, reports := [⟨1, 1, 0, 0, 0⟩] } := by decide +kernel
theorem Demo.delB_step : Demo.nMod98.step (.delete 2 ⟨2, 9⟩ Demo.backwards) =
    (Demo.nEndB, .reply { type := .deletion, seid := 200, seq := 9, cause := 1, reports := [⟨1, 1, 0, 0, 0⟩] }) :=
  Prod.ext (by simp only [Demo.nEndB]) Demo.delB_out
theorem Demo.delB_orderly : Orderly Demo.nMod98 (.delete 2 ⟨2, 9⟩ Demo.backwards) := by
  have h1 := Demo.delB_out
  have h2 : ((Demo.nMod98.step (.delete 2 ⟨2, 9⟩ Demo.backwards)).1.keyList.all fun x => (Demo.nMod98.keyList.any fun y => y.1 == x.1) ||
    Demo.nMod98.keyList.all fun y => y.2 != x.2) = true := by decide +kernel
  have h3 : ((Demo.nMod98.step (.delete 2 ⟨2, 9⟩ Demo.backwards)).1.keyList.all fun x => (Demo.nMod98.step (.delete 2 ⟨2, 9⟩ Demo.backwards)).1.keyList.all fun y =>
      (x.1 == y.1 || x.2 != y.2) && !(x.1.1 == y.1.1 && x.1.2.1 == y.1.2.1 && x.2.clash y.2)) = true := by decide +kernel
  generalize Demo.nMod98 = n at h1 h2 h3 ⊢
  exact orderly_delete h1 (by decide) h2 h3
theorem Demo.histB : ∃ h h', SameButOrders h h' ∧ HistP Clean Demo.n0 h Demo.nEnd98 ∧ HistP Clean Demo.n0 h' Demo.nEndB ∧ attempts h = 2 ∧ attempts h' = 2 ∧
    ∀ k ohr sdf F Q, Tells h k ohr sdf F Q → Demo.rules115 k ohr sdf F Q := by
  obtain ⟨h, s2, hb⟩ := Demo.two99
  have s3 := HistP.snoc s2 (clean_establish (orderly_establish (a := 1) (r := Demo.svc) (by decide) (by decide +kernel) (by decide +kernel) (by decide +kernel))
    (by decide) (by decide) (by decide) Demo.svc_own) Demo.svc_step
  have s4 := HistP.snoc s3 (clean_establish (orderly_establish (a := 2) (r := Demo.est 200) (by decide) (by decide +kernel) (by decide +kernel) (by decide +kernel))
    (by decide) (by decide) (by decide) Demo.est_own) Demo.est98_step
  have s5 := HistP.snoc s4 Demo.mod98_clean Demo.mod98_step
  have s6 := HistP.snoc s5 (clean_other (by simp) (by simp) Demo.del98_orderly) Demo.del98_step
  have s7 := HistP.snoc s5 (clean_other (by simp) (by simp) Demo.delB_orderly) Demo.delB_step
  refine ⟨_, _, ?_, s6, s7, ?_, ?_, ?_⟩
  · rfl
  · show attempts h + 1 + 1 = 2
    rw [hb]
  · show attempts h + 1 + 1 = 2
    rw [hb]
  · exact fun k ohr sdf F Q hT => (Demo.tells100 hb k ohr sdf F Q).1 hT

/-- C115_orders_partial on the two runs. -/
example (e : Env) (s t : PS) (hs : s.dp = Demo.nEnd98.dp) (ht : t.dp = Demo.nEndB.dp) (hf : s.frame = t.frame) :
    (runPacket e s).2 = (runPacket e t).2 ∧ ((runPacket e s).2 ≠ .ok .aborted → (runPacket e s).1.frame = (runPacket e t).1.frame) := by
  obtain ⟨h, h', hh, H, H', b, b', hT⟩ := Demo.histB
  generalize Demo.nEnd98 = n at H hs
  generalize Demo.nEndB = n' at H' ht
  refine C115_orders_partial (fz := 4) (qz := 4) (uz := 4) (by decide) (by decide) (by decide) H (by rw [b]; decide)
    (fz' := 4) (qz' := 4) (uz' := 4) (by decide) (by decide) (by decide) H' (by rw [b']; decide) hh ?_ e s t hs ht hf
  intro k ohr sdf F Q h1
  rcases hT k ohr sdf F Q h1 with ⟨rfl, -, -, -, rfl⟩ | ⟨rfl, -, -, -, rfl⟩ <;> exact rfl

/-! ### with rate limits -/

/-- The session of `Demo.svcRate` (1000 kbit/s uplink, 2000 kbit/s downlink) at the other UPF, with a QER of its own for each PDR. -/
def Demo.rate115 : EstReq :=
  { Demo.est115 with
    createFar := [{ kind := .create, farId := some 12, applyAction := some [2], forward := some (some (some ⟨0x0100, 0x200, some 0x0A000314, false⟩)), tlm := some 0x1CFF },
                  { kind := .create, farId := some 11, applyAction := some [2] }]
    createQer := [{ qerId := some 5, qfi := some 9, mbrUL := some 1000, mbrDL := some 2000 }, { qerId := some 6, qfi := some 9, mbrUL := some 1000, mbrDL := some 2000 }]
    createPdr := [{ pdrId := some 20, farId := some 12, qerId := some 5, pdi := some { ueip := some (some { ipv4 := some 0x0A3C0001 }) } },
                  { pdrId := some 21, farId := some 11, qerId := some 6, ohr := some 0, pdi := some { fteid := some (some ⟨0x100, false, none⟩) } }] }
def Demo.n115r : Node := (Demo.n115a.step (.establish 5 Demo.rate115)).1
theorem Demo.rate115_step : Demo.n115a.step (.establish 5 Demo.rate115) = (Demo.n115r, .reply Demo.resp115) := by
  have : (Demo.n115a.step (.establish 5 Demo.rate115)).2 = .reply Demo.resp115 := by decide +kernel
  exact Prod.ext (by simp only [Demo.n115r]) this
theorem Demo.rate115_own : ∀ ie ∈ Demo.rate115.createPdr, (∃ i, ie.farId = some i ∧ ∃ c ∈ Demo.rate115.createFar, c.farId.getD 0 = i) ∧
    ∃ i, ie.qerId = some i ∧ ∃ c ∈ Demo.rate115.createQer, c.qerId = some i := by
  intro ie hie
  simp only [Demo.rate115, List.mem_cons, List.not_mem_nil, or_false] at hie
  rcases hie with rfl | rfl
  · exact ⟨⟨12, rfl, Demo.rate115.createFar[0], by simp [Demo.rate115], rfl⟩, 5, rfl, Demo.rate115.createQer[0], by simp [Demo.rate115], rfl⟩
  · exact ⟨⟨11, rfl, Demo.rate115.createFar[1], by simp [Demo.rate115], rfl⟩, 6, rfl, Demo.rate115.createQer[1], by simp [Demo.rate115], rfl⟩
theorem Demo.histR115 : ∃ h, attempts h = 0 ∧ HistP Clean Demo.n115 ((.establish 5 Demo.rate115, .reply Demo.resp115) :: h) Demo.n115r := by
  obtain ⟨h, s1, hb⟩ := Demo.one115
  have s2 := HistP.snoc s1 (clean_establish (orderly_establish (a := 5) (r := Demo.rate115) (by decide) (by decide +kernel) (by decide +kernel) (by decide +kernel))
    (by decide) (by decide) (by decide) Demo.rate115_own) Demo.rate115_step
  exact ⟨h, hb, s2⟩

theorem Demo.said_first {h : List (Ev × Outcome)} (hb : attempts h = 0) (b : Addr) (r : EstReq) (resp : Resp) (hc : resp.cause = 1) (hf : resp.fseid = some 2)
    (hcr : resp.created = []) (a : Addr) (s : U64) : said ((.establish b r, .reply resp) :: h) a s = if a = b ∧ s = 2 then some (ASession.established r []) else none := by
  simp only [said, said_empty hb, hc, hf, hcr]
  by_cases h1 : a = b ∧ s = 2
  · obtain ⟨rfl, rfl⟩ := h1
    simp
  · rw [if_neg h1, if_neg]
    rintro ⟨-, g1, g2⟩
    exact h1 ⟨g1, by cases g2; rfl⟩
/-- What was said at both: PDRs and their QERs. -/
theorem Demo.saidR {h : List (Ev × Outcome)} (hb : attempts h = 0) {a : Addr} {s : U64} {i : U32} {P : APdr} {F : AFar} {Q : AQer}
    (hs : Said ((.establish 1 Demo.svcRate, .reply Demo.svcResp) :: h) a s i P F Q) : a = 1 ∧ s = 2 ∧ P.qer = 1 ∧
      ((P = ⟨.dl4 0x0A3C0001, 0, none, 2, 1⟩ ∧ F = ⟨2, 0x0100, 0x200, 0x0A000314, 0x1CFF⟩ ∧ Q = ⟨0, 0, 1000, 2000, 9⟩) ∨
       (P = ⟨.ul 0x100, 0, none, 1, 1⟩ ∧ F = ⟨2, 0, 0, 0, 0⟩ ∧ Q = ⟨0, 0, 1000, 2000, 9⟩)) := by
  obtain ⟨x, h1, h2, h3, h4⟩ := hs
  rw [Demo.said_first hb 1 Demo.svcRate Demo.svcResp rfl rfl rfl] at h1
  split at h1
  · rename_i h0
    cases h1
    have : (ASession.established Demo.svcRate []).pdrs i = if i = 2 then some ⟨.dl4 0x0A3C0001, 0, none, 2, 1⟩ else if i = 1 then some ⟨.ul 0x100, 0, none, 1, 1⟩ else none := by
      simp only [ASession.established, Demo.svcRate, Demo.svc, List.foldl, ASession.createPdr, ASession.createFar, ASession.createQer, withAt]
      rfl
    rw [this] at h2
    split at h2
    · cases h2
      cases h3; cases h4
      exact ⟨h0.1, h0.2, rfl, .inl ⟨rfl, rfl, rfl⟩⟩
    · split at h2
      · cases h2
        cases h3; cases h4
        exact ⟨h0.1, h0.2, rfl, .inr ⟨rfl, rfl, rfl⟩⟩
      · cases h2
  · cases h1
theorem Demo.saidR' {h : List (Ev × Outcome)} (hb : attempts h = 0) {a : Addr} {s : U64} {i : U32} {P : APdr} {F : AFar} {Q : AQer}
    (hs : Said ((.establish 5 Demo.rate115, .reply Demo.resp115) :: h) a s i P F Q) : a = 5 ∧ s = 2 ∧ (P.qer = 5 ∨ P.qer = 6) ∧
      ((P = ⟨.dl4 0x0A3C0001, 0, none, 12, 5⟩ ∧ F = ⟨2, 0x0100, 0x200, 0x0A000314, 0x1CFF⟩ ∧ Q = ⟨0, 0, 1000, 2000, 9⟩) ∨
       (P = ⟨.ul 0x100, 0, none, 11, 6⟩ ∧ F = ⟨2, 0, 0, 0, 0⟩ ∧ Q = ⟨0, 0, 1000, 2000, 9⟩)) := by
  obtain ⟨x, h1, h2, h3, h4⟩ := hs
  rw [Demo.said_first hb 5 Demo.rate115 Demo.resp115 rfl rfl rfl] at h1
  split at h1
  · rename_i h0
    cases h1
    have : (ASession.established Demo.rate115 []).pdrs i = if i = 21 then some ⟨.ul 0x100, 0, none, 11, 6⟩ else if i = 20 then some ⟨.dl4 0x0A3C0001, 0, none, 12, 5⟩ else none := by
      simp only [ASession.established, Demo.rate115, List.foldl, ASession.createPdr, ASession.createFar, ASession.createQer, withAt]
      rfl
    rw [this] at h2
    split at h2
    · cases h2
      cases h3; cases h4
      exact ⟨h0.1, h0.2, .inr rfl, .inr ⟨rfl, rfl, rfl⟩⟩
    · split at h2
      · cases h2
        cases h3; cases h4
        exact ⟨h0.1, h0.2, .inl rfl, .inl ⟨rfl, rfl, rfl⟩⟩
      · cases h2
  · cases h1
theorem Demo.said20 (h : List (Ev × Outcome)) : Said ((.establish 5 Demo.rate115, .reply Demo.resp115) :: h) 5 2 20 ⟨.dl4 0x0A3C0001, 0, none, 12, 5⟩
    ⟨2, 0x0100, 0x200, 0x0A000314, 0x1CFF⟩ ⟨0, 0, 1000, 2000, 9⟩ := ⟨ASession.established Demo.rate115 [], by simp [said, Demo.resp115], rfl, rfl, rfl⟩
theorem Demo.said21 (h : List (Ev × Outcome)) : Said ((.establish 5 Demo.rate115, .reply Demo.resp115) :: h) 5 2 21 ⟨.ul 0x100, 0, none, 11, 6⟩
    ⟨2, 0, 0, 0, 0⟩ ⟨0, 0, 1000, 2000, 9⟩ := ⟨ASession.established Demo.rate115 [], by simp [said, Demo.resp115], rfl, rfl, rfl⟩
theorem Demo.timer115 : Demo.n115r.qerOf 5 2 5 = some ⟨0, 0, 9, 1000000, 2000000, 0, 0⟩ ∧ Demo.n115r.qerOf 5 2 6 = some ⟨0, 0, 9, 1000000, 2000000, 0, 0⟩ := by decide +kernel

/-- C115_same_limited_partial: the first packet, whatever it is and whenever it comes, meets the same fate at `Demo.nRate` and at the other UPF. -/
example (e : Env) (s t : PS) (hs : s.dp = Demo.nRate.dp) (ht : t.dp = Demo.n115r.dp) (hf : s.frame = t.frame) :
    (runPacket e s).2 = (runPacket e t).2 ∧ ((runPacket e s).2 ≠ .ok .aborted → (runPacket e s).1.frame = (runPacket e t).1.frame) := by
  obtain ⟨h, H, b⟩ := Demo.histRate
  obtain ⟨h', b', H'⟩ := Demo.histR115
  have b0 : attempts h + 1 = 1 := b
  have b1 : attempts ((.establish 5 Demo.rate115, .reply Demo.resp115) :: h') = 1 := by show attempts h' + 1 = 1; rw [b']
  have t1 := fun a s i P F Q => Demo.saidR (h := h) (by omega) (a := a) (s := s) (i := i) (P := P) (F := F) (Q := Q)
  have t2 := fun a s i P F Q => Demo.saidR' b' (a := a) (s := s) (i := i) (P := P) (F := F) (Q := Q)
  have u1 := Demo.rate_dl h
  have u2 := Demo.rate_ul h
  have u3 := Demo.said20 h'
  have u4 := Demo.said21 h'
  have v1 := Demo.rate_timer
  have v2 := Demo.timer115
  generalize Demo.nRate = n at H hs v1
  generalize Demo.n115r = n' at H' ht v2
  generalize ((.establish 1 Demo.svcRate, .reply Demo.svcResp) :: h : List (Ev × Outcome)) = hh at H b t1 u1 u2
  generalize ((.establish 5 Demo.rate115, .reply Demo.resp115) :: h' : List (Ev × Outcome)) = hh' at H' b1 t2 u3 u4
  refine C115_same_limited_partial (fz := 4) (qz := 4) (uz := 4) (by decide) (by decide) (by decide) H (by rw [b]; decide)
    (fz' := 8) (qz' := 8) (uz' := 8) (by decide) (by decide) (by decide) H' (by rw [b1]; decide) ?_ e s t hs ht hf ?_
  · intro k ohr sdf F Q
    constructor
    · rintro ⟨a, s, i, P, hS, rfl, rfl, rfl⟩
      rcases t1 a s i P F Q hS with ⟨-, -, -, ⟨rfl, rfl, rfl⟩ | ⟨rfl, rfl, rfl⟩⟩
      · exact ⟨_, _, _, _, u3, rfl, rfl, rfl⟩
      · exact ⟨_, _, _, _, u4, rfl, rfl, rfl⟩
    · rintro ⟨a, s, i, P, hS, rfl, rfl, rfl⟩
      rcases t2 a s i P F Q hS with ⟨-, -, -, ⟨rfl, rfl, rfl⟩ | ⟨rfl, rfl, rfl⟩⟩
      · exact ⟨_, _, _, _, u1, rfl, rfl, rfl⟩
      · exact ⟨_, _, _, _, u2, rfl, rfl, rfl⟩
  · intro a s i P F Q a' s' i' P' F' Q' h1 h2 _ _
    refine .inr fun q q' g1 g2 => ?_
    obtain ⟨rfl, rfl, e1, -⟩ := t1 a s i P F Q h1
    obtain ⟨rfl, rfl, e2, -⟩ := t2 a' s' i' P' F' Q' h2
    rw [e1, v1] at g1
    cases g1
    rcases e2 with e2 | e2
    · rw [e2, v2.1] at g2; cases g2; exact ⟨rfl, rfl⟩
    · rw [e2, v2.2] at g2; cases g2; exact ⟨rfl, rfl⟩

end Eupf
