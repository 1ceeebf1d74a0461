import Verif.Spec.Twins
import Verif.Xdp.Twins
import Verif.Props.ToldRate
import Verif.Props.Atomic
/-
C115: what happens to a packet depends on what was told, and on nothing else.
-/
namespace Eupf

theorem AFar.Is.unique {F : AFar} {f f' : FarInfo} (h : F.Is f) (h' : F.Is f') : f = f' := by
  obtain ⟨a, o, t, r, m⟩ := f
  obtain ⟨a', o', t', r', m'⟩ := f'
  obtain ⟨h1, h2, h3, h4, h5⟩ := h
  obtain ⟨g1, g2, g3, g4, g5⟩ := h'
  simp only at h1 h2 h3 h4 h5 g1 g2 g3 g4 g5
  have ho : o = o' := BitVec.eq_of_toNat_eq (h2.trans g2.symm)
  have hr : r = r' := by
    apply BitVec.eq_of_toNat_eq
    have e0 := (h4 0 (by omega)).trans (g4 0 (by omega)).symm
    have e1 := (h4 1 (by omega)).trans (g4 1 (by omega)).symm
    have e2 := (h4 2 (by omega)).trans (g4 2 (by omega)).symm
    have e3 := (h4 3 (by omega)).trans (g4 3 (by omega)).symm
    have l := r.isLt
    have l' := r'.isLt
    generalize r.toNat = x at *
    generalize r'.toNat = y at *
    simp only [Nat.reducePow] at e0 e1 e2 e3 l l'
    omega
  subst h1 h3 h5 g1 g3 g5 ho hr
  rfl

theorem AQer.Is.rates {Q : AQer} {q q' : QerInfo} (h : Q.Is q) (h' : Q.Is q') :
    q.gateUL = q'.gateUL ∧ q.gateDL = q'.gateDL ∧ q.qfi = q'.qfi ∧ q.mbrUL = q'.mbrUL ∧ q.mbrDL = q'.mbrDL :=
  ⟨h.gateUL.trans h'.gateUL.symm, h.gateDL.trans h'.gateDL.symm, h.qfi.trans h'.qfi.symm,
    BitVec.eq_of_toNat_eq (h.mbrUL.trans h'.mbrUL.symm), BitVec.eq_of_toNat_eq (h.mbrDL.trans h'.mbrDL.symm)⟩

theorem frameRule_absent {b : BpfObjects} {K : PdrKey} (he : b.entry? K = none) {f : List U8} (hf : KeyOf f K) : frameRule b f K = none := by
  cases K with
  | ul t => cases hf; have h : b.pdrUl.lookup (gtpTeid f) = none := he; simp only [frameRule, ulRule, h]
  | dl4 t => cases hf; have h : b.pdrDl4.lookup (be32 f 30) = none := he; simp only [frameRule, dlRule4, h]; rfl
  | dl6 t => cases hf; have h : b.pdrDl6.lookup (be128 (slice f 38 16)) = none := he; simp only [frameRule, dlRule6, h]; rfl

theorem said_unordered (x : Ev × Outcome) (h : List (Ev × Outcome)) (a : Addr) (s : U64) : said (x :: h) a s = said ((x.1.unordered, x.2) :: h) a s := by
  obtain ⟨e, o⟩ := x
  cases e <;> cases o <;> rfl
theorem said_cons_congr (x : Ev × Outcome) {h h' : List (Ev × Outcome)} (hh : ∀ a s, said h a s = said h' a s) (a : Addr) (s : U64) :
    said (x :: h) a s = said (x :: h') a s := by
  obtain ⟨e, o⟩ := x
  cases e <;> cases o <;> simp only [said, hh]
theorem SameButOrders.said {h h' : List (Ev × Outcome)} (hh : SameButOrders h h') (a : Addr) (s : U64) : said h a s = said h' a s := by
  induction h generalizing h' a s with
  | nil =>
    cases h' with
    | nil => rfl
    | cons y l => cases hh
  | cons x h ih =>
    cases h' with
    | nil => cases hh
    | cons y l =>
      unfold SameButOrders at hh
      simp only [List.map_cons, List.cons.injEq] at hh
      rw [said_unordered x, said_unordered y, hh.1]
      exact said_cons_congr _ (fun a s => ih hh.2 a s) a s
theorem SameButOrders.told {h h' : List (Ev × Outcome)} (hh : SameButOrders h h') : SameTold h h' := by
  have key : ∀ a s i P F Q, Said h a s i P F Q ↔ Said h' a s i P F Q := fun a s i P F Q =>
    ⟨fun ⟨x, h1, h2⟩ => ⟨x, (hh.said a s).symm.trans h1, h2⟩, fun ⟨x, h1, h2⟩ => ⟨x, (hh.said a s).trans h1, h2⟩⟩
  intro k ohr sdf F Q
  unfold Tells
  simp only [key]

section
variable {cfg : NodeCfg} {rm : Option ResourceManager} {pz fz qz uz : U32} (hfz : 0 < fz.toNat) (hqz : 0 < qz.toNat)
    (huz : 0 < uz.toNat) {h : List (Ev × Outcome)} {n : Node} (H : HistP Clean (Node.init cfg rm (BpfObjects.load pz fz qz uz)) h n)
    (hb : attempts h < 2 ^ 64 - 2)
include hfz hqz huz H hb

/-- from what was said to the tables, with the QER of the session -/
theorem said_tables_qer {a : Addr} {s : U64} {i : U32} {P : APdr} {F : AFar} {Q : AQer} (hs : Said h a s i P F Q) :
    ∃ r far qer, InTables n P F Q r far qer ∧ n.qerOf a s P.qer = some qer := by
  obtain ⟨A, hA, hP, hF, hQ⟩ := hs.pdr
  have hs := C100_said_partial hfz hqz huz H a s
  rw [hA] at hs
  obtain ⟨x, hx, hI⟩ := both_some hs
  have hpd := hI.pdrs i
  rw [hP] at hpd
  obtain ⟨p, hp, hIs⟩ := both_some hpd
  obtain ⟨P', F', Q', f, q, hs', k1, k2, k3, f1, f2, f3, q1, q2, q3⟩ := said_of hfz hqz huz H hx hp
  obtain ⟨A', hA', hP', hF', hQ'⟩ := hs'.pdr
  rw [hA] at hA'; cases hA'
  rw [hP] at hP'; cases hP'
  rw [hF] at hF'; cases hF'
  rw [hQ] at hQ'; cases hQ'
  have G := (H.mono fun n e (h : Clean n e) => h.tidy.known).good fun _ _ h => h
  obtain ⟨c1, -⟩ := C09_agrees_partial G hx P.far
  obtain ⟨-, c2⟩ := C09_agrees_partial G hx P.qer
  obtain ⟨k, d1, d2, d3, d4, d5, d6⟩ := c2 q q1
  have ex := (exactS_hist hfz hqz huz (H.mono fun n e (h : Clean n e) => h.orderly) hb).1
  refine ⟨p.info, f.info, k, ⟨k3.symm, k2.symm, ?_, by rw [← f3]; exact c1 f f1, f2, by rw [← q3]; exact d1, ?_⟩, qerOf_of hx q1 d1⟩
  · rw [k1]; exact ex.live a s i p ⟨x, hx, hp⟩
  · exact ⟨by rw [d2]; exact q2.gateUL, by rw [d3]; exact q2.gateDL, by rw [d5]; exact q2.mbrUL, by rw [d6]; exact q2.mbrDL, by rw [d4]; exact q2.qfi⟩

/-- a key that nobody was given has no rule -/
theorem untold_rule {K : PdrKey} (hK : ∀ a s i P F Q, Said h a s i P F Q → P.key ≠ K) {f : List U8} (hf : KeyOf f K) : frameRule n.dp f K = none := by
  have ex := (exactS_hist hfz hqz huz (H.mono fun n e (h : Clean n e) => h.orderly) hb).1
  refine frameRule_absent (ex.only K ?_) hf
  rintro a sd i p ⟨x, hx, hp⟩ hk
  obtain ⟨P, F, Q, f, q, hs, k1, -⟩ := said_of hfz hqz huz H hx hp
  exact hK a sd i P F Q hs (k1.trans hk)
end

section
variable {cfg : NodeCfg} {rm : Option ResourceManager} {pz fz qz uz : U32} (hfz : 0 < fz.toNat) (hqz : 0 < qz.toNat)
    (huz : 0 < uz.toNat) {h : List (Ev × Outcome)} {n : Node} (H : HistP Clean (Node.init cfg rm (BpfObjects.load pz fz qz uz)) h n)
    (hb : attempts h < 2 ^ 64 - 2)
    {cfg' : NodeCfg} {rm' : Option ResourceManager} {pz' fz' qz' uz' : U32} (hfz' : 0 < fz'.toNat) (hqz' : 0 < qz'.toNat)
    (huz' : 0 < uz'.toNat) {h' : List (Ev × Outcome)} {n' : Node} (H' : HistP Clean (Node.init cfg' rm' (BpfObjects.load pz' fz' qz' uz')) h' n')
    (hb' : attempts h' < 2 ^ 64 - 2) (hsame : SameTold h h')
include hfz hqz huz H hb hfz' hqz' huz' H' hb' hsame

theorem told_twins {K : PdrKey} (hl : ∀ a s i P F Q a' s' i' P' F' Q', Said h a s i P F Q → Said h' a' s' i' P' F' Q' → P.key = K → P'.key = K →
      Q.unlimitedFor K ∨ ∀ q q', n.qerOf a s P.qer = some q → n'.qerOf a' s' P'.qer = some q' → q.sameTimers q')
    {f : List U8} (hf : KeyOf f K) : TwinAt n.dp n'.dp f K := by
  by_cases hK : ∃ a s i P F Q, Said h a s i P F Q ∧ P.key = K
  · obtain ⟨a, s, i, P, F, Q, hs, rfl⟩ := hK
    obtain ⟨a', s', i', P', hs', k1, k2, k3⟩ := (hsame P.key P.ohr P.sdf F Q).1 ⟨a, s, i, P, hs, rfl, rfl, rfl⟩
    obtain ⟨r, far, qer, T, tq⟩ := said_tables_qer hfz hqz huz H hb hs
    obtain ⟨r', far', qer', T', tq'⟩ := said_tables_qer hfz' hqz' huz' H' hb' hs'
    have ent' := T'.ent
    have cls' := T'.cls
    rw [k1] at ent' cls'
    by_cases hfit : P.fits f
    · refine .inr ⟨r.rule, r'.rule, far, qer, qer', frameRule_fits T.ent hf ?_, frameRule_fits ent' hf ?_, ?_, T.hasFar, ?_, T.hasQer, T'.hasQer, ?_⟩
      · intro sdf hsd; rw [T.sdf] at hsd; exact hfit sdf hsd
      · intro sdf hsd; rw [T'.sdf, k3] at hsd; exact hfit sdf hsd
      · show r.ohr = r'.ohr
        rw [T.ohr, T'.ohr, k2]
      · rw [T.isFar.unique T'.isFar]; exact T'.hasFar
      · obtain ⟨g1, g2, g3, g4, g5⟩ := T.isQer.rates T'.isQer
        have hz : ∀ {x : U32} {y : U64}, x.toNat = y.toNat * 1000 % 2 ^ 32 → y = 0 → x = 0 := by
          intro x y hx hy; apply BitVec.eq_of_toNat_eq; rw [hx, hy]; rfl
        rcases hl a s i P F Q a' s' i' P' F Q hs hs' rfl k1 with hu | ht
        · refine ⟨g1, g2, g3, g4, g5, ?_, ?_⟩
          · intro t hk; rw [hk] at hu; exact .inl (hz T.isQer.mbrUL hu)
          · intro hk
            refine .inl (hz T.isQer.mbrDL ?_)
            cases hkk : P.key with
            | ul t => exact absurd hkk (hk t)
            | dl4 ip => rw [hkk] at hu; exact hu
            | dl6 ip => rw [hkk] at hu; exact hu
        · obtain ⟨t1, t2⟩ := ht qer qer' tq tq'
          exact ⟨g1, g2, g3, g4, g5, fun _ _ => .inr t1, fun _ => .inr t2⟩
    · refine .inl ⟨frameRule_unfit (p := r) T.cls hf ?_, frameRule_unfit (p := r') cls' hf ?_⟩
      · intro hh; apply hfit; intro sdf hsd; rw [← T.sdf] at hsd; exact hh sdf hsd
      · intro hh; apply hfit; intro sdf hsd; rw [← k3, ← T'.sdf] at hsd; exact hh sdf hsd
  · refine .inl ⟨untold_rule hfz hqz huz H hb (fun a s i P F Q hs hk => hK ⟨a, s, i, P, F, Q, hs, hk⟩) hf,
      untold_rule hfz' hqz' huz' H' hb' (fun a s i P F Q hs hk => hK ?_) hf⟩
    obtain ⟨b, t, j, P2, h2, k2, -⟩ := (hsame P.key P.ohr P.sdf F Q).2 ⟨a, s, i, P, hs, rfl, rfl, rfl⟩
    exact ⟨b, t, j, P2, F, Q, h2, k2.trans hk⟩

/-- **C115, with rate limits.** Two UPFs, with clean histories that told the same rules: every frame meets the same fate at both, if of the rules for
its key (for an echo request to the UPF: of all rules) either there is no rate limit or the limiters of both are in the same state. What was counted
before (`s.st`, `s.rt`) makes no difference. -/
theorem C115_same_limited_partial (e : Env) (s t : PS) (hs : s.dp = n.dp) (ht : t.dp = n'.dp) (hf : s.frame = t.frame)
    (hl : ∀ a s i P F Q a' s' i' P' F' Q', Said h a s i P F Q → Said h' a' s' i' P' F' Q' → P.key = P'.key → FrameFor e t.frame P.key ∨ PingsUpf e t.frame →
      Q.unlimitedFor P.key ∨ ∀ q q', n.qerOf a s P.qer = some q → n'.qerOf a' s' P'.qer = some q' → q.sameTimers q') :
    (runPacket e s).2 = (runPacket e t).2 ∧ ((runPacket e s).2 ≠ .ok .aborted → (runPacket e s).1.frame = (runPacket e t).1.frame) := by
  refine twins_fate' (f := t.frame) (fun K hK => ?_) (fun hp => ?_) s t ⟨hf, hs⟩ ⟨rfl, ht⟩
  · refine told_twins hfz hqz huz H hb hfz' hqz' huz' H' hb' hsame ?_ hK.keyOf
    rintro a s i P F Q a' s' i' P' F' Q' hs hs' rfl hk
    exact hl a s i P F Q a' s' i' P' F' Q' hs hs' hk.symm (.inl hK)
  · refine told_twins hfz hqz huz H hb hfz' hqz' huz' H' hb' hsame ?_ rfl
    intro a s i P F Q a' s' i' P' F' Q' hs hs' h1 h2
    rw [← h1]
    exact hl a s i P F Q a' s' i' P' F' Q' hs hs' (h1.trans h2.symm) (.inr hp)

/-- **C115.** Two UPFs, whatever their configurations, table sizes and histories (order of requests, peers, sessions, ids, slots, traffic in between): if
they were told the same rules, and none with a rate limit, every frame meets the same fate at both. -/
theorem C115_same_partial (hu : ∀ k ohr sdf F Q, Tells h k ohr sdf F Q → Q.unlimitedFor k) (e : Env) (s t : PS) (hs : s.dp = n.dp) (ht : t.dp = n'.dp)
    (hf : s.frame = t.frame) :
    (runPacket e s).2 = (runPacket e t).2 ∧ ((runPacket e s).2 ≠ .ok .aborted → (runPacket e s).1.frame = (runPacket e t).1.frame) :=
  C115_same_limited_partial hfz hqz huz H hb hfz' hqz' huz' H' hb' hsame e s t hs ht hf
    fun a s i P F Q _ _ _ _ _ _ hs _ _ _ => .inl (hu P.key P.ohr P.sdf F Q ⟨a, s, i, P, hs, rfl, rfl, rfl⟩)

omit hsame in
/-- **C115, map iteration orders.** The orders in which Go goes through its maps make no difference: two runs with the same requests and the same answers, and
no rate limit, treat every frame alike. -/
theorem C115_orders_partial (hh : SameButOrders h h') (hu : ∀ k ohr sdf F Q, Tells h k ohr sdf F Q → Q.unlimitedFor k) (e : Env) (s t : PS) (hs : s.dp = n.dp)
    (ht : t.dp = n'.dp) (hf : s.frame = t.frame) :
    (runPacket e s).2 = (runPacket e t).2 ∧ ((runPacket e s).2 ≠ .ok .aborted → (runPacket e s).1.frame = (runPacket e t).1.frame) :=
  C115_same_partial hfz hqz huz H hb hfz' hqz' huz' H' hb' hh.told hu e s t hs ht hf

/-- **C115, any number of frames.** The same for any sequence of frames, one after the other: each gets the same action at both. -/
theorem C115_sequence_partial (hu : ∀ k ohr sdf F Q, Tells h k ohr sdf F Q → Q.unlimitedFor k) (d d' : Dev) (hd : d.dp = n.dp) (hd' : d'.dp = n'.dp)
    (l : List (Env × List U8)) : (d.run l).2 = (d'.run l).2 := by
  induction l generalizing d d' n n' with
  | nil => rfl
  | cons x l ih =>
    obtain ⟨e, f⟩ := x
    have hs := (C115_same_partial hfz hqz huz H hb hfz' hqz' huz' H' hb' hsame hu e ⟨f, d.dp, d.st, d.rt⟩ ⟨f, d'.dp, d'.st, d'.rt⟩ hd hd' rfl).1
    obtain ⟨s1, a1, h1, r1, -⟩ := entry_outcome e ⟨f, d.dp, d.st, d.rt⟩
    obtain ⟨s2, a2, h2, r2, -⟩ := entry_outcome e ⟨f, d'.dp, d'.st, d'.rt⟩
    rw [h1, h2] at hs
    cases hs
    have e1 := packetRes_effect r1
    have e2 := packetRes_effect r2
    simp only at e1 e2
    rw [hd] at e1
    rw [hd'] at e2
    have := ih (H.traffic e1) (H'.traffic e2) ⟨s1.dp, s1.st, s1.rt⟩ ⟨s2.dp, s2.st, s2.rt⟩ rfl rfl
    simp only [Dev.run, h1, h2, this]
end
end Eupf
