import Verif.Xdp.Fate
/- What the fate of a frame depends on, echo requests to the UPF included, and when two tables with different slots agree on it. Models no code. -/
namespace Eupf

/-- equal QERs, as far as traffic for the key can tell -/
structure SameQer (K : PdrKey) (q q' : QerInfo) : Prop where
  gateUL : q.gateUL = q'.gateUL
  gateDL : q.gateDL = q'.gateDL
  qfi : q.qfi = q'.qfi
  mbrUL : q.mbrUL = q'.mbrUL
  mbrDL : q.mbrDL = q'.mbrDL
  ul : ∀ t, K = .ul t → q.mbrUL = 0 ∨ q.startUL = q'.startUL
  dl : (∀ t, K ≠ .ul t) → q.mbrDL = 0 ∨ q.startDL = q'.startDL

theorem SameQer.rateUl {t : U32} {q q' : QerInfo} (h : SameQer (.ul t) q q') (e : Env) (n : Nat) : (rateUl e q n = none ↔ rateUl e q' n = none) := by
  unfold Eupf.rateUl
  rw [h.mbrUL]
  rcases h.ul t rfl with h0 | h0
  · rw [← h.mbrUL, h0]; unfold limitRate; simp
  · rw [h0]

theorem SameQer.rateDl {K : PdrKey} (hK : ∀ t, K ≠ .ul t) {q q' : QerInfo} (h : SameQer K q q') (e : Env) (n : Nat) : (rateDl e q n = none ↔ rateDl e q' n = none) := by
  unfold Eupf.rateDl
  rw [h.mbrDL]
  rcases h.dl hK with h0 | h0
  · rw [← h.mbrDL, h0]; unfold limitRate; simp
  · rw [h0]

theorem downFate_same {K : PdrKey} (hK : ∀ t, K ≠ .ul t) {q q' : QerInfo} (h : SameQer K q q') (e : Env) (f : List U8) (n : U16) (r r' : Rule) (far : FarInfo) :
    downFate e f n (some r) (some far) (some q) = downFate e f n (some r') (some far) (some q') := by
  simp only [downFate]
  rw [← h.gateDL, ← h.qfi]
  split
  · have hr := h.rateDl hK e f.length
    cases h1 : rateDl e q f.length with
    | none => rw [hr.1 h1]
    | some x =>
      cases h2 : rateDl e q' f.length with
      | none => exact nomatch (hr.2 h2).symm.trans h1
      | some y => rfl
  · rfl

open Classical in
/-- what happens to a G-PDU, as a function of what is looked up for it; `pg` is what happens to the answer to an echo request -/
noncomputable def upFateP (e : Env) (f : List U8) (rule : Option Rule) (far? : Option FarInfo) (qer? : Option QerInfo) (pg : XAction × List U8) : XAction × List U8 :=
  match rule, far?, qer? with
  | none, _, _ => (.pass, f)
  | some r, some far, some qer =>
    if far.action.getLsbD 1 = true ∧ qer.gateUL = 0 then
      if rateUl e qer f.length = none then (.drop, f)
      else if far.ohc.getLsbD 0 = true then
        let g := retunnelFrame f e.n9 far.remoteIP far.teid
        (routeAct e (e.fib (fibReq4 e g)), macRewrite g (e.fib (fibReq4 e g)))
      else if r.ohr ≠ 0 then (routeAct e (e.fib (fibReq4 e f)), macRewrite f (e.fib (fibReq4 e f)))
      else if ¬ cutOk f then (.aborted, [])
      else if innerType f = some 0x0800 then
        let g := cutFrame f 0x0800
        if ToSelf e g then (if IsPing g then pg else (.aborted, [])) else (routeAct e (e.fib (fibReq4 e g)), macRewrite g (e.fib (fibReq4 e g)))
      else
        let g := cutFrame f 0x86DD
        (routeAct e (e.fib (fibReq6 e g)), macRewrite g (e.fib (fibReq6 e g)))
    else (.drop, f)
  | some _, _, _ => (.drop, f)

/-- what happens to the answer to an echo request -/
def pingFate (e : Env) (b : BpfObjects) (f : List U8) : XAction × List U8 :=
  let g := pingReply (cutFrame f 0x0800)
  downFate e g (be16 g 16) (dlRule4 b g) ((dlRule4 b g).bind fun r => b.far.lookup r.far) ((dlRule4 b g).bind fun r => b.qer.lookup r.qer)

theorem downFate_dl {e : Env} {f : List U8} {n : U16} {rule : Option Rule} {far? : Option FarInfo} {x y : Option QerInfo}
    (h : (x = none ∧ y = none) ∨ ∃ q q', x = some q ∧ y = some q' ∧ q.gateDL = q'.gateDL ∧ q.qfi = q'.qfi ∧ q.mbrDL = q'.mbrDL ∧ q.startDL = q'.startDL) :
    downFate e f n rule far? x = downFate e f n rule far? y := by
  rcases h with ⟨rfl, rfl⟩ | ⟨q, q', rfl, rfl, h1, h2, h3, h4⟩
  · rfl
  · cases rule with
    | none => rfl
    | some r =>
      cases far? with
      | none => rfl
      | some far => simp only [downFate, rateDl, h1, h2, h3, h4]

theorem chargeUl_lookup (b : BpfObjects) (p : PdrEntry) (q : U32) (t : U64) (n : Nat) (i : U32) :
    ((chargeUl b p q t n).qer.lookup i = none ∧ b.qer.lookup i = none) ∨
    ∃ k k', (chargeUl b p q t n).qer.lookup i = some k ∧ b.qer.lookup i = some k' ∧ k.gateDL = k'.gateDL ∧ k.qfi = k'.qfi ∧ k.mbrDL = k'.mbrDL ∧ k.startDL = k'.startDL := by
  have hq : (chargeUl b p q t n).qer = (b.setStart q (fun x => { x with startUL := t })).qer := by
    unfold chargeUl BpfObjects.addUrr; split <;> split <;> rfl
  rw [hq]
  unfold BpfObjects.setStart ArrMap.lookup
  simp only
  by_cases hi : i.toNat < b.qer.size.toNat
  · rw [if_pos hi, if_pos hi]
    refine .inr ⟨_, _, rfl, rfl, ?_⟩
    split
    · rename_i h; subst h; exact ⟨rfl, rfl, rfl, rfl⟩
    · exact ⟨rfl, rfl, rfl, rfl⟩
  · rw [if_neg hi, if_neg hi]; exact .inl ⟨rfl, rfl⟩

theorem UpRes.fateP {e : Env} {b : BpfObjects} {f : List U8} {fr : List U8} {dp : BpfObjects} {a : XAction} (h : UpRes e b f fr dp a) :
    a = (upFateP e f (ulRule b f) ((ulRule b f).bind fun r => b.far.lookup r.far) ((ulRule b f).bind fun r => b.qer.lookup r.qer) (pingFate e b f)).1 ∧
    (a ≠ .aborted → fr = (upFateP e f (ulRule b f) ((ulRule b f).bind fun r => b.far.lookup r.far) ((ulRule b f).bind fun r => b.qer.lookup r.qer) (pingFate e b f)).2) := by
  cases h with
  | unclassified h => rw [h]; exact ⟨rfl, fun _ => rfl⟩
  | @denied r h hn =>
    rw [h]
    simp only [Option.bind_some]
    cases h1 : b.far.lookup r.far with
    | none => exact ⟨rfl, fun _ => rfl⟩
    | some far =>
      cases h2 : b.qer.lookup r.qer with
      | none => exact ⟨rfl, fun _ => rfl⟩
      | some qer =>
        simp only [upFateP]
        rw [if_neg]
        · exact ⟨rfl, fun _ => rfl⟩
        · rintro ⟨x, z⟩
          exact hn ⟨far, qer, h1, x, h2, z⟩
  | policed h hp hr =>
    rw [h]
    simp only [Option.bind_some, hp.hasFar, hp.hasQer, upFateP]
    rw [if_pos ⟨hp.forw, hp.gate⟩, if_pos hr]
    exact ⟨rfl, fun _ => rfl⟩
  | n9 g _ h hp hr ho hg =>
    rw [h]
    simp only [Option.bind_some, hp.hasFar, hp.hasQer, upFateP]
    rw [if_pos ⟨hp.forw, hp.gate⟩, if_neg (by rw [hr]; simp)]
    simp only [ho, if_true, hg]
    exact ⟨trivial, fun _ => trivial⟩
  | kept _ h hp hr ho hh =>
    rw [h]
    simp only [Option.bind_some, hp.hasFar, hp.hasQer, upFateP]
    rw [if_pos ⟨hp.forw, hp.gate⟩, if_neg (by rw [hr]; simp)]
    simp only [ho, Bool.false_eq_true, if_false, hh, ne_eq, not_false_eq_true, if_true]
    exact ⟨trivial, fun _ => trivial⟩
  | garbled fr _ h hp hr ho hh hc =>
    rw [h]
    simp only [Option.bind_some, hp.hasFar, hp.hasQer, upFateP]
    rw [if_pos ⟨hp.forw, hp.gate⟩, if_neg (by rw [hr]; simp)]
    simp only [ho, Bool.false_eq_true, if_false, hh, ne_eq, not_true_eq_false, hc, not_false_eq_true, if_true]
    exact ⟨trivial, fun hx => hx.elim⟩
  | cut4 g _ h hp hr ho hh hc ht hg hs =>
    rw [h]
    subst hg
    simp only [Option.bind_some, hp.hasFar, hp.hasQer, upFateP]
    rw [if_pos ⟨hp.forw, hp.gate⟩, if_neg (by rw [hr]; simp)]
    simp only [ho, Bool.false_eq_true, if_false, hh, ne_eq, not_true_eq_false, hc, ht, if_true, hs]
    exact ⟨trivial, fun _ => trivial⟩
  | cut6 g _ h hp hr ho hh hc ht hg =>
    rw [h]
    subst hg
    simp only [Option.bind_some, hp.hasFar, hp.hasQer, upFateP]
    rw [if_pos ⟨hp.forw, hp.gate⟩, if_neg (by rw [hr]; simp)]
    have hne : ¬ (some (0x86DD : U16) = some 0x0800) := by decide
    simp only [ho, Bool.false_eq_true, if_false, hh, ne_eq, not_true_eq_false, hc, ht, hne]
    exact ⟨trivial, fun _ => trivial⟩
  | selfOther g fr _ h hp hr ho hh hc ht hg hs hnp =>
    rw [h]
    subst hg
    simp only [Option.bind_some, hp.hasFar, hp.hasQer, upFateP]
    rw [if_pos ⟨hp.forw, hp.gate⟩, if_neg (by rw [hr]; simp)]
    simp only [ho, Bool.false_eq_true, if_false, hh, ne_eq, not_true_eq_false, hc, ht, if_true, hs, hnp]
    exact ⟨trivial, fun hx => hx.elim⟩
  | @ping pdr r far qer start g _ _ _ _ h hp hr ho hh hc ht hg hs hpg d =>
    rw [h]
    subst hg
    simp only [Option.bind_some, hp.hasFar, hp.hasQer, upFateP]
    rw [if_pos ⟨hp.forw, hp.gate⟩, if_neg (by rw [hr]; simp)]
    simp only [ho, Bool.false_eq_true, if_false, hh, ne_eq, not_true_eq_false, hc, ht, if_true, hs, hpg]
    have t := DownRes.fate d
    have ef := chargeUl_effect b pdr r.qer start f.length
    have e2 : (chargeUl b pdr r.qer start f.length).far = b.far := ef.far
    rw [ef.dlRule4, e2] at t
    have : (a, fr) = pingFate e b f := by
      rw [t]
      unfold pingFate
      simp only
      apply downFate_dl
      cases dlRule4 b (pingReply (cutFrame f 0x0800)) with
      | none => exact .inl ⟨rfl, rfl⟩
      | some r' => exact chargeUl_lookup ..
    rw [← this]
    exact ⟨rfl, fun _ => rfl⟩

theorem upFateP_same {t : U32} {q q' : QerInfo} (h : SameQer (.ul t) q q') (e : Env) (f : List U8) {r r' : Rule} (ho : r.ohr = r'.ohr) (far : FarInfo) (pg : XAction × List U8) :
    upFateP e f (some r) (some far) (some q) pg = upFateP e f (some r') (some far) (some q') pg := by
  simp only [upFateP]
  rw [← h.gateUL, ← ho]
  by_cases hr : rateUl e q f.length = none
  · simp only [hr, (h.rateUl e f.length).1 hr]
  · have hr' : ¬ rateUl e q' f.length = none := fun hx => hr ((h.rateUl e f.length).2 hx)
    simp only [hr, hr']

theorem upFateP_noping {e : Env} {f : List U8} {rule : Option Rule} {x : Option FarInfo} {y : Option QerInfo} {p p' : XAction × List U8}
    (h : ¬ (innerType f = some 0x0800 ∧ ToSelf e (cutFrame f 0x0800) ∧ IsPing (cutFrame f 0x0800))) : upFateP e f rule x y p = upFateP e f rule x y p' := by
  cases rule with
  | none => rfl
  | some r =>
    cases x with
    | none => rfl
    | some far =>
      cases y with
      | none => rfl
      | some q =>
        simp only [upFateP]
        by_cases h1 : innerType f = some 0x0800
        · by_cases h2 : ToSelf e (cutFrame f 0x0800)
          · have h3 : ¬ IsPing (cutFrame f 0x0800) := fun h3 => h ⟨h1, h2, h3⟩
            simp only [h3, if_false]
          · simp only [h2, if_false]
        · simp only [h1, if_false]

/-- the tables agree on the frame: no rule in both, or rules with equal parameters -/
def TwinAt (b c : BpfObjects) (f : List U8) (K : PdrKey) : Prop :=
  (frameRule b f K = none ∧ frameRule c f K = none) ∨
  ∃ r r' far q q', frameRule b f K = some r ∧ frameRule c f K = some r' ∧ r.ohr = r'.ohr ∧ b.far.lookup r.far = some far ∧ c.far.lookup r'.far = some far ∧
    b.qer.lookup r.qer = some q ∧ c.qer.lookup r'.qer = some q' ∧ SameQer K q q'

theorem TwinAt.down {b c : BpfObjects} {f : List U8} {K : PdrKey} (h : TwinAt b c f K) (hK : ∀ t, K ≠ .ul t) (e : Env) (n : U16) :
    downFate e f n (frameRule b f K) ((frameRule b f K).bind fun r => b.far.lookup r.far) ((frameRule b f K).bind fun r => b.qer.lookup r.qer) =
    downFate e f n (frameRule c f K) ((frameRule c f K).bind fun r => c.far.lookup r.far) ((frameRule c f K).bind fun r => c.qer.lookup r.qer) := by
  rcases h with ⟨h1, h2⟩ | ⟨r, r', far, q, q', h1, h2, h3, h4, h5, h6, h7, h8⟩
  · rw [h1, h2]; rfl
  · rw [h1, h2]; simp only [Option.bind_some, h4, h5, h6, h7]
    exact downFate_same hK h8 e f n r r' far

theorem TwinAt.up {b c : BpfObjects} {f : List U8} {t : U32} (h : TwinAt b c f (.ul t)) (e : Env) (pg : XAction × List U8) :
    upFateP e f (ulRule b f) ((ulRule b f).bind fun r => b.far.lookup r.far) ((ulRule b f).bind fun r => b.qer.lookup r.qer) pg =
    upFateP e f (ulRule c f) ((ulRule c f).bind fun r => c.far.lookup r.far) ((ulRule c f).bind fun r => c.qer.lookup r.qer) pg := by
  rcases h with ⟨h1, h2⟩ | ⟨r, r', far, q, q', h1, h2, h3, h4, h5, h6, h7, h8⟩
  · have h1 : ulRule b f = none := h1
    have h2 : ulRule c f = none := h2
    rw [h1, h2]; rfl
  · have h1 : ulRule b f = some r := h1
    have h2 : ulRule c f = some r' := h2
    rw [h1, h2]; simp only [Option.bind_some, h4, h5, h6, h7]
    exact upFateP_same h8 e f h3 far pg

/-- Tables that agree on a frame (and, if it is an echo request to the UPF, on the answer) lead to the same fate, whatever the counters say. -/
theorem twins_fate' {e : Env} {f : List U8} {b c : BpfObjects} (h : ∀ K, FrameFor e f K → TwinAt b c f K)
    (hp : PingsUpf e f → TwinAt b c (pingReply (cutFrame f 0x0800)) (.dl4 (be32 (pingReply (cutFrame f 0x0800)) 30))) (s t : PS)
    (hs : s.frame = f ∧ s.dp = b) (ht : t.frame = f ∧ t.dp = c) :
    (runPacket e s).2 = (runPacket e t).2 ∧ ((runPacket e s).2 ≠ .ok .aborted → (runPacket e s).1.frame = (runPacket e t).1.frame) := by
  obtain ⟨fs, bs, st, rt⟩ := s
  obtain ⟨ft, ct, st', rt'⟩ := t
  simp only at hs ht
  rw [hs.1, hs.2, ht.1, ht.2]
  obtain ⟨s1, a1, h1, r1, -⟩ := entry_outcome e ⟨f, b, st, rt⟩
  obtain ⟨s2, a2, h2, r2, -⟩ := entry_outcome e ⟨f, c, st', rt'⟩
  rw [h1, h2]
  clear h1 h2
  simp only at r1 r2 ⊢
  generalize s1.frame = f1 at *
  generalize s2.frame = f2 at *
  generalize s1.dp = d1 at *
  generalize s2.dp = d2 at *
  suffices hs : a1 = a2 ∧ (a1 ≠ .aborted → f1 = f2) by
    exact ⟨by rw [hs.1], fun hne => hs.2 fun hx => hne (by rw [hx])⟩
  have x46 : IsDown4 e f → IsDown6 f → False := fun h h' => by
    have := h.ip.type.symm.trans h'.ip.type
    revert this; decide
  have x6 : ∀ {t}, IsGtpMsg e f t → IsDown6 f → False := fun h h' => by
    have := h.gtpu.ip.type.symm.trans h'.ip.type
    revert this; decide
  cases r1 with
  | foreign w =>
    cases r2 with
    | foreign _ => exact ⟨rfl, fun _ => rfl⟩
    | otherMsg g _ _ => exact absurd g (w.notMsg _)
    | echo g => exact absurd g (w.notMsg _)
    | gpdu g _ => exact absurd g (w.notMsg _)
    | down4 g _ => exact absurd g w.notDown4
    | down6 g _ => exact absurd g w.notDown6
  | otherMsg w hn hn1 =>
    cases r2 with
    | foreign g => exact absurd w (g.notMsg _)
    | otherMsg g _ _ => exact ⟨rfl, fun _ => rfl⟩
    | echo g => exact absurd (gtpMsg_type w g) hn1
    | gpdu g _ => exact absurd (gtpMsg_type w g) hn
    | down4 g _ => exact absurd w.gtpu g.notGtpu
    | down6 g _ => exact (x6 w g).elim
  | echo w =>
    cases r2 with
    | foreign g => exact absurd w (g.notMsg _)
    | otherMsg g _ hn => exact absurd (gtpMsg_type g w) hn
    | echo g => exact ⟨rfl, fun _ => rfl⟩
    | gpdu g _ => exact absurd (gtpMsg_type w g) (by decide)
    | down4 g _ => exact absurd w.gtpu g.notGtpu
    | down6 g _ => exact (x6 w g).elim
  | gpdu w u =>
    cases r2 with
    | foreign g => exact absurd w (g.notMsg _)
    | otherMsg g hn _ => exact absurd (gtpMsg_type g w) hn
    | echo g => exact absurd (gtpMsg_type w g) (by decide)
    | gpdu g u' =>
      have q := h (.ul (gtpTeid f)) ⟨w, rfl⟩
      have t1 := u.fateP
      have t2 := u'.fateP
      rw [q.up e] at t1
      have hx : upFateP e f (ulRule c f) ((ulRule c f).bind fun r => c.far.lookup r.far) ((ulRule c f).bind fun r => c.qer.lookup r.qer) (pingFate e b f) =
          upFateP e f (ulRule c f) ((ulRule c f).bind fun r => c.far.lookup r.far) ((ulRule c f).bind fun r => c.qer.lookup r.qer) (pingFate e c f) := by
        by_cases hq : innerType f = some 0x0800 ∧ ToSelf e (cutFrame f 0x0800) ∧ IsPing (cutFrame f 0x0800)
        · have : pingFate e b f = pingFate e c f := (hp ⟨w, hq⟩).down (by intro t h; cases h) e _
          rw [this]
        · exact upFateP_noping hq
      rw [hx] at t1
      refine ⟨t1.1.trans t2.1.symm, fun hne => ?_⟩
      rw [t1.2 hne, t2.2 (by rw [t2.1, ← t1.1]; exact hne)]
    | down4 g _ => exact absurd w.gtpu g.notGtpu
    | down6 g _ => exact (x6 w g).elim
  | down4 w u =>
    cases r2 with
    | foreign g => exact absurd w g.notDown4
    | otherMsg g _ _ => exact absurd g.gtpu w.notGtpu
    | echo g => exact absurd g.gtpu w.notGtpu
    | gpdu g _ => exact absurd g.gtpu w.notGtpu
    | down4 g u' =>
      have q := (h (.dl4 (be32 f 30)) ⟨w, rfl⟩).down (by intro t h; cases h) e (be16 f 16)
      have t1 := DownRes.fate u
      have t2 := DownRes.fate u'
      have t3 : (a1, f1) = (a2, f2) := t1.trans (q.trans t2.symm)
      cases t3
      exact ⟨rfl, fun _ => rfl⟩
    | down6 g _ => exact (x46 w g).elim
  | down6 w u =>
    cases r2 with
    | foreign g => exact absurd w g.notDown6
    | otherMsg g _ _ => exact (x6 g w).elim
    | echo g => exact (x6 g w).elim
    | gpdu g _ => exact (x6 g w).elim
    | down4 g _ => exact (x46 g w).elim
    | down6 g u' =>
      have q := (h (.dl6 (be128 (slice f 38 16))) ⟨w, rfl⟩).down (by intro t h; cases h) e (be16 f 18 + 40)
      have t1 := DownRes.fate u
      have t2 := DownRes.fate u'
      have t3 : (a1, f1) = (a2, f2) := t1.trans (q.trans t2.symm)
      cases t3
      exact ⟨rfl, fun _ => rfl⟩

theorem twins_fate {e : Env} {f : List U8} {b c : BpfObjects} (h : ∀ K, FrameFor e f K → TwinAt b c f K)
    (hp : PingsUpf e f → TwinAt b c (pingReply (cutFrame f 0x0800)) (.dl4 (be32 (pingReply (cutFrame f 0x0800)) 30))) : SameFate e f b c :=
  fun st rt => twins_fate' h hp ⟨f, b, st, rt⟩ ⟨f, c, st, rt⟩ ⟨rfl, rfl⟩ ⟨rfl, rfl⟩

end Eupf
