import Verif.Xdp.Outcome
import Verif.Spec.Atomic
import Verif.Props.AbstractPackets
/- What the fate of a frame depends on. Models no code. -/
namespace Eupf

/-- what happens to a downlink frame, as a function of what is looked up for it -/
def downFate (e : Env) (f : List U8) (n : U16) (rule : Option Rule) (far? : Option FarInfo) (qer? : Option QerInfo) : XAction × List U8 :=
  match rule, far?, qer? with
  | none, _, _ => (.pass, f)
  | some _, some far, some qer =>
    if far.action.getLsbD 1 = true ∧ far.ohc.getLsbD 0 = true ∧ qer.gateDL = 0 then
      match rateDl e qer f.length with
      | none => (.drop, f)
      | some _ =>
        if e.headroom = none then (.aborted, f) else
          let g := encapFrame f n e.n3 far.remoteIP ((far.tlm >>> 8).truncate 8) qer.qfi far.teid
          (routeAct e (e.fib (fibReq4 e g)), macRewrite g (e.fib (fibReq4 e g)))
    else (.drop, f)
  | some _, _, _ => (.drop, f)

theorem DownRes.fate {e : Env} {b : BpfObjects} {f : List U8} {pdr? : Option PdrEntry} {rule : Option Rule} {n : U16} {fr : List U8} {dp : BpfObjects} {a : XAction}
    (h : DownRes e b f pdr? rule n fr dp a) :
    (a, fr) = downFate e f n rule (rule.bind fun r => b.far.lookup r.far) (rule.bind fun r => b.qer.lookup r.qer) := by
  cases h with
  | unclassified h => subst h; rfl
  | @denied r h hn =>
    subst h
    simp only [Option.bind_some]
    cases h1 : b.far.lookup r.far with
    | none => rfl
    | some far =>
      cases h2 : b.qer.lookup r.qer with
      | none => rfl
      | some qer =>
        simp only [downFate]
        rw [if_neg]
        rintro ⟨x, y, z⟩
        exact hn ⟨far, qer, h1, x, y, h2, z⟩
  | policed h hp hr =>
    subst h
    simp only [Option.bind_some, hp.hasFar, hp.hasQer, downFate]
    rw [if_pos ⟨hp.forw, hp.tunnel, hp.gate⟩, hr]
  | noRoom _ h hp hr hh =>
    subst h
    simp only [Option.bind_some, hp.hasFar, hp.hasQer, downFate]
    rw [if_pos ⟨hp.forw, hp.tunnel, hp.gate⟩, hr]
    simp only [hh, if_true]
  | sent g _ h hp hr hh hg =>
    subst h
    simp only [Option.bind_some, hp.hasFar, hp.hasQer, downFate]
    rw [if_pos ⟨hp.forw, hp.tunnel, hp.gate⟩, hr]
    simp only [hh, if_false, hg]

open Classical in
/-- what happens to a G-PDU, as a function of what is looked up for it -/
noncomputable def upFate (e : Env) (f : List U8) (rule : Option Rule) (far? : Option FarInfo) (qer? : Option QerInfo) : XAction × List U8 :=
  match rule, far?, qer? with
  | none, _, _ => (.pass, f)
  | some r, some far, some qer =>
    if far.action.getLsbD 1 = true ∧ qer.gateUL = 0 then
      match rateUl e qer f.length with
      | none => (.drop, f)
      | some _ =>
        if far.ohc.getLsbD 0 = true then
          let g := retunnelFrame f e.n9 far.remoteIP far.teid
          (routeAct e (e.fib (fibReq4 e g)), macRewrite g (e.fib (fibReq4 e g)))
        else if r.ohr ≠ 0 then (routeAct e (e.fib (fibReq4 e f)), macRewrite f (e.fib (fibReq4 e f)))
        else if ¬ cutOk f then (.aborted, [])
        else if innerType f = some 0x0800 then
          let g := cutFrame f 0x0800
          if ToSelf e g then (.aborted, []) else (routeAct e (e.fib (fibReq4 e g)), macRewrite g (e.fib (fibReq4 e g)))
        else
          let g := cutFrame f 0x86DD
          (routeAct e (e.fib (fibReq6 e g)), macRewrite g (e.fib (fibReq6 e g)))
    else (.drop, f)
  | some _, _, _ => (.drop, f)

theorem UpRes.fate {e : Env} {b : BpfObjects} {f : List U8} {fr : List U8} {dp : BpfObjects} {a : XAction} (h : UpRes e b f fr dp a)
    (hp : ¬ (innerType f = some 0x0800 ∧ ToSelf e (cutFrame f 0x0800) ∧ IsPing (cutFrame f 0x0800))) :
    a = (upFate e f (ulRule b f) ((ulRule b f).bind fun r => b.far.lookup r.far) ((ulRule b f).bind fun r => b.qer.lookup r.qer)).1 ∧
    (a ≠ .aborted → fr = (upFate e f (ulRule b f) ((ulRule b f).bind fun r => b.far.lookup r.far) ((ulRule b f).bind fun r => b.qer.lookup r.qer)).2) := by
  cases h with
  | unclassified h => rw [h]; exact ⟨rfl, fun _ => rfl⟩
  | @denied r h hn =>
    rw [h]
    simp only [Option.bind_some]
    cases h1 : b.far.lookup r.far with
    | none => exact ⟨rfl, fun _ => rfl⟩
    | some far =>
      cases h2 : b.qer.lookup r.qer with
      | none => exact ⟨rfl, fun _ => rfl⟩
      | some qer =>
        simp only [upFate]
        rw [if_neg]
        · exact ⟨rfl, fun _ => rfl⟩
        · rintro ⟨x, z⟩
          exact hn ⟨far, qer, h1, x, h2, z⟩
  | policed h hp hr =>
    rw [h]
    simp only [Option.bind_some, hp.hasFar, hp.hasQer, upFate]
    rw [if_pos ⟨hp.forw, hp.gate⟩, hr]
    exact ⟨rfl, fun _ => rfl⟩
  | n9 g _ h hp hr ho hg =>
    rw [h]
    simp only [Option.bind_some, hp.hasFar, hp.hasQer, upFate]
    rw [if_pos ⟨hp.forw, hp.gate⟩, hr]
    simp only [ho, if_true, hg]
    exact ⟨trivial, fun _ => trivial⟩
  | kept _ h hp hr ho hh =>
    rw [h]
    simp only [Option.bind_some, hp.hasFar, hp.hasQer, upFate]
    rw [if_pos ⟨hp.forw, hp.gate⟩, hr]
    simp only [ho, Bool.false_eq_true, if_false, hh, ne_eq, not_false_eq_true, if_true]
    exact ⟨trivial, fun _ => trivial⟩
  | garbled fr _ h hp hr ho hh hc =>
    rw [h]
    simp only [Option.bind_some, hp.hasFar, hp.hasQer, upFate]
    rw [if_pos ⟨hp.forw, hp.gate⟩, hr]
    simp only [ho, Bool.false_eq_true, if_false, hh, ne_eq, not_true_eq_false, hc, not_false_eq_true, if_true]
    exact ⟨trivial, fun hx => hx.elim⟩
  | cut4 g _ h hp hr ho hh hc ht hg hs =>
    rw [h]
    subst hg
    simp only [Option.bind_some, hp.hasFar, hp.hasQer, upFate]
    rw [if_pos ⟨hp.forw, hp.gate⟩, hr]
    simp only [ho, Bool.false_eq_true, if_false, hh, ne_eq, not_true_eq_false, hc, ht, if_true, hs]
    exact ⟨trivial, fun _ => trivial⟩
  | cut6 g _ h hp hr ho hh hc ht hg =>
    rw [h]
    subst hg
    simp only [Option.bind_some, hp.hasFar, hp.hasQer, upFate]
    rw [if_pos ⟨hp.forw, hp.gate⟩, hr]
    have hne : ¬ (some (0x86DD : U16) = some 0x0800) := by decide
    simp only [ho, Bool.false_eq_true, if_false, hh, ne_eq, not_true_eq_false, hc, ht, hne]
    exact ⟨trivial, fun _ => trivial⟩
  | selfOther g fr _ h hp hr ho hh hc ht hg hs =>
    rw [h]
    subst hg
    simp only [Option.bind_some, hp.hasFar, hp.hasQer, upFate]
    rw [if_pos ⟨hp.forw, hp.gate⟩, hr]
    simp only [ho, Bool.false_eq_true, if_false, hh, ne_eq, not_true_eq_false, hc, ht, if_true, hs]
    exact ⟨trivial, fun hx => hx.elim⟩
  | ping g _ _ _ _ _ _ _ ht hg hs hpg _ =>
    subst hg
    exact absurd ⟨ht, hs, hpg⟩ hp

theorem frameRule_congr {b c : BpfObjects} {e : Env} {f : List U8} {K : PdrKey} (hf : FrameFor e f K) (h : b.entry? K = c.entry? K) : frameRule b f K = frameRule c f K := by
  cases K with
  | ul t => obtain ⟨-, rfl⟩ := hf; have h : b.pdrUl.lookup (gtpTeid f) = c.pdrUl.lookup (gtpTeid f) := h; simp only [frameRule, ulRule, h]
  | dl4 t => obtain ⟨-, rfl⟩ := hf; have h : b.pdrDl4.lookup (be32 f 30) = c.pdrDl4.lookup (be32 f 30) := h; simp only [frameRule, dlRule4, h]
  | dl6 t => obtain ⟨-, rfl⟩ := hf; have h : b.pdrDl6.lookup (be128 (slice f 38 16)) = c.pdrDl6.lookup (be128 (slice f 38 16)) := h; simp only [frameRule, dlRule6, h]

/-- what a frame looks up is the same in both tables -/
def AlikeFor (e : Env) (f : List U8) (b c : BpfObjects) : Prop :=
  ∀ K, FrameFor e f K → b.entry? K = c.entry? K ∧ ∀ r, frameRule b f K = some r → b.far.lookup r.far = c.far.lookup r.far ∧ b.qer.lookup r.qer = c.qer.lookup r.qer

theorem bind_eq_of {α β : Type} {x : Option α} {f g : α → Option β} (h : ∀ r, x = some r → f r = g r) : x.bind f = x.bind g := by
  cases x with
  | none => rfl
  | some r => exact h r rfl

theorem gtpMsg_type {e : Env} {f : List U8} {t t' : U8} (h : IsGtpMsg e f t) (h' : IsGtpMsg e f t') : t = t' := by rw [← h.type, ← h'.type]

/-- Tables that are alike for a frame lead to the same fate. -/
theorem AlikeFor.fate {e : Env} {f : List U8} {b c : BpfObjects} (h : AlikeFor e f b c) (hp : ¬ PingsUpf e f) : SameFate e f b c := by
  intro st rt
  obtain ⟨s1, a1, h1, r1, -⟩ := entry_outcome e ⟨f, b, st, rt⟩
  obtain ⟨s2, a2, h2, r2, -⟩ := entry_outcome e ⟨f, c, st, rt⟩
  rw [h1, h2]
  clear h1 h2
  simp only at r1 r2 ⊢
  generalize s1.frame = f1 at *
  generalize s2.frame = f2 at *
  generalize s1.dp = d1 at *
  generalize s2.dp = d2 at *
  suffices hs : a1 = a2 ∧ (a1 ≠ .aborted → f1 = f2) by
    exact ⟨by rw [hs.1], fun hne => hs.2 fun hx => hne (by rw [hx])⟩
  have x46 : IsDown4 e f → IsDown6 f → False := fun h h' => by
    have := h.ip.type.symm.trans h'.ip.type
    revert this; decide
  have x6 : ∀ {t}, IsGtpMsg e f t → IsDown6 f → False := fun h h' => by
    have := h.gtpu.ip.type.symm.trans h'.ip.type
    revert this; decide
  cases r1 with
  | foreign w =>
    cases r2 with
    | foreign _ => exact ⟨rfl, fun _ => rfl⟩
    | otherMsg g _ _ => exact absurd g (w.notMsg _)
    | echo g => exact absurd g (w.notMsg _)
    | gpdu g _ => exact absurd g (w.notMsg _)
    | down4 g _ => exact absurd g w.notDown4
    | down6 g _ => exact absurd g w.notDown6
  | otherMsg w hn hn1 =>
    cases r2 with
    | foreign g => exact absurd w (g.notMsg _)
    | otherMsg g _ _ => exact ⟨rfl, fun _ => rfl⟩
    | echo g => exact absurd (gtpMsg_type w g) hn1
    | gpdu g _ => exact absurd (gtpMsg_type w g) hn
    | down4 g _ => exact absurd w.gtpu g.notGtpu
    | down6 g _ => exact (x6 w g).elim
  | echo w =>
    cases r2 with
    | foreign g => exact absurd w (g.notMsg _)
    | otherMsg g _ hn => exact absurd (gtpMsg_type g w) hn
    | echo g => exact ⟨rfl, fun _ => rfl⟩
    | gpdu g _ => exact absurd (gtpMsg_type w g) (by decide)
    | down4 g _ => exact absurd w.gtpu g.notGtpu
    | down6 g _ => exact (x6 w g).elim
  | gpdu w u =>
    cases r2 with
    | foreign g => exact absurd w (g.notMsg _)
    | otherMsg g hn _ => exact absurd (gtpMsg_type g w) hn
    | echo g => exact absurd (gtpMsg_type w g) (by decide)
    | gpdu g u' =>
      have hp' : ¬ (innerType f = some 0x0800 ∧ ToSelf e (cutFrame f 0x0800) ∧ IsPing (cutFrame f 0x0800)) := fun hx => hp ⟨w, hx⟩
      obtain ⟨q1, q2⟩ := h (.ul (gtpTeid f)) ⟨w, rfl⟩
      have q3 : ulRule b f = ulRule c f := frameRule_congr (e := e) (K := .ul (gtpTeid f)) ⟨w, rfl⟩ q1
      have t1 := u.fate hp'
      have t2 := u'.fate hp'
      rw [← q3, ← bind_eq_of (x := ulRule b f) (fun r hr => (q2 r hr).1), ← bind_eq_of (x := ulRule b f) (fun r hr => (q2 r hr).2)] at t2
      refine ⟨t1.1.trans t2.1.symm, fun hne => ?_⟩
      rw [t1.2 hne, t2.2 (by rw [t2.1, ← t1.1]; exact hne)]
    | down4 g _ => exact absurd w.gtpu g.notGtpu
    | down6 g _ => exact (x6 w g).elim
  | down4 w u =>
    cases r2 with
    | foreign g => exact absurd w g.notDown4
    | otherMsg g _ _ => exact absurd g.gtpu w.notGtpu
    | echo g => exact absurd g.gtpu w.notGtpu
    | gpdu g _ => exact absurd g.gtpu w.notGtpu
    | down4 g u' =>
      obtain ⟨q1, q2⟩ := h (.dl4 (be32 f 30)) ⟨w, rfl⟩
      have q3 : dlRule4 b f = dlRule4 c f := frameRule_congr (e := e) (K := .dl4 (be32 f 30)) ⟨w, rfl⟩ q1
      have t1 := DownRes.fate u
      have t2 := DownRes.fate u'
      rw [← q3, ← bind_eq_of (x := dlRule4 b f) (fun r hr => (q2 r hr).1), ← bind_eq_of (x := dlRule4 b f) (fun r hr => (q2 r hr).2), ← t1] at t2
      cases t2
      exact ⟨rfl, fun _ => rfl⟩
    | down6 g _ => exact (x46 w g).elim
  | down6 w u =>
    cases r2 with
    | foreign g => exact absurd w g.notDown6
    | otherMsg g _ _ => exact (x6 g w).elim
    | echo g => exact (x6 g w).elim
    | gpdu g _ => exact (x6 g w).elim
    | down4 g _ => exact (x46 g w).elim
    | down6 g u' =>
      obtain ⟨q1, q2⟩ := h (.dl6 (be128 (slice f 38 16))) ⟨w, rfl⟩
      have q3 : dlRule6 b f = dlRule6 c f := frameRule_congr (e := e) (K := .dl6 (be128 (slice f 38 16))) ⟨w, rfl⟩ q1
      have t1 := DownRes.fate u
      have t2 := DownRes.fate u'
      rw [← q3, ← bind_eq_of (x := dlRule6 b f) (fun r hr => (q2 r hr).1), ← bind_eq_of (x := dlRule6 b f) (fun r hr => (q2 r hr).2), ← t1] at t2
      cases t2
      exact ⟨rfl, fun _ => rfl⟩

end Eupf
