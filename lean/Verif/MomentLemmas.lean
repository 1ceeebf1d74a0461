import Verif.Spec.Moments
import Verif.NodeLemmas
import Verif.KeyGuard
/- Pieces of requests with packets in between: the whole is `Node.step`, up to what packets do. Models no code. -/
namespace Eupf

theorem Act.all_nil (s : HS) : Act.all [] s = (s, .ok ()) := rfl
theorem Act.all_cons (m : Piece) (l : List Piece) (s : HS) :
    Act.all (m :: l) s = match m s with
      | (t, .ok ()) => Act.all l t
      | (t, .err) => (t, .err)
      | (t, .panic) => (t, .panic) := by
  show Act.bind m (fun _ => Act.all l) s = _
  unfold Act.bind
  rcases m s with ⟨t, r⟩
  cases r <;> rfl
theorem Act.all_cons_ok {m : Piece} {s t : HS} (l : List Piece) (h : m s = (t, .ok ())) : Act.all (m :: l) s = Act.all l t := by
  rw [Act.all_cons, h]
theorem Act.all_cons_fail {m : Piece} {s t : HS} {r : Res Unit} (l : List Piece) (h : m s = (t, r)) (hr : r ≠ .ok ()) : Act.all (m :: l) s = (t, r) := by
  rw [Act.all_cons, h]
  cases r with
  | ok _ => exact absurd rfl hr
  | err => rfl
  | panic => rfl

theorem Act.all_append (l1 l2 : List Piece) : Act.all (l1 ++ l2) = (do Act.all l1; Act.all l2) := by
  funext s
  show _ = Act.bind (Act.all l1) (fun _ => Act.all l2) s
  induction l1 generalizing s with
  | nil => rfl
  | cons m l ih =>
    show Act.all (m :: (l ++ l2)) s = _
    unfold Act.bind at ih ⊢
    rw [Act.all_cons, Act.all_cons]
    rcases m s with ⟨t, r⟩
    cases r with
    | ok _ => exact ih t
    | err => rfl
    | panic => rfl

theorem Act.all_map {α : Type} (f : α → Piece) (l : List α) : Act.all (l.map f) = Act.each f l := by
  induction l with
  | nil => rfl
  | cons x l ih =>
    show Act.bind (f x) (fun _ => Act.all (l.map f)) = Act.bind (f x) (fun _ => Act.each f l)
    rw [ih]

theorem establish_pieces (ue : Bool) (r : EstReq) : establishBody ue r = Act.all (estPieces ue r) := by
  simp only [estPieces, Act.all_append, Act.all_map]
  rfl
theorem modify_pieces (ue : Bool) (ord : Orders) (r : ModReq) : modifyBody ue ord r = Act.all (modPieces ue ord r) := by
  simp only [modPieces, Act.all_append, Act.all_map]
  rfl
theorem delete_pieces (ord : Orders) (x : Session) : deleteBody ord x = Act.all (delPieces ord x) := by
  simp only [delPieces, Act.all_append, Act.all_map]
  rfl
theorem drop_pieces (ord : Orders) (x : Session) (s : HS) :
    Act.all (dropPieces ord x) s = deleteSessionBody ord x ⟨x, GoMap.empty, s.rm, s.dp, [], []⟩ := by
  unfold dropPieces
  rw [Act.all_cons_ok (t := ⟨x, GoMap.empty, s.rm, s.dp, [], []⟩) _ rfl]
  simp only [Act.all_append, Act.all_map]
  rfl

/-- `DeleteSession` discards the errors. -/
theorem deleteSessionBody_not_err (ord : Orders) (x : Session) (s : HS) : (deleteSessionBody ord x s).2 ≠ .err := by
  have ig : ∀ (m : Act HS Unit) (s : HS), (Act.ignore m s).2 ≠ .err := by
    intro m s
    unfold Act.ignore
    rcases m s with ⟨t, r⟩
    cases r <;> simp
  have ea : ∀ {α : Type} (f : α → Act HS Unit) (l : List α) (s : HS), (∀ x s, (f x s).2 ≠ .err) → (Act.each f l s).2 ≠ .err := by
    intro α f l
    induction l with
    | nil => intro s _ h; cases h
    | cons x l ih =>
      intro s hf
      show (Act.bind (f x) (fun _ => Act.each f l) s).2 ≠ .err
      unfold Act.bind
      have := hf x s
      rcases hx : f x s with ⟨t, r⟩
      rw [hx] at this
      cases r with
      | ok _ => exact ih t hf
      | err => exact absurd rfl this
      | panic => intro h; cases h
  have bi : ∀ (m k : Act HS Unit) (s : HS), (∀ s, (m s).2 ≠ .err) → (∀ s, (k s).2 ≠ .err) → (Act.bind m (fun _ => k) s).2 ≠ .err := by
    intro m k s h1 h2
    unfold Act.bind
    have := h1 s
    rcases hx : m s with ⟨t, r⟩
    rw [hx] at this
    cases r with
    | ok _ => exact h2 t
    | err => exact absurd rfl this
    | panic => intro h; cases h
  refine bi _ _ s (fun s => ea _ _ s fun x s => ig _ s) fun s => bi _ _ s (fun s => ea _ _ s fun x s => ig _ s) fun s => ea _ _ s fun x s => ig _ s

/-- Not ended by a panic. -/
def Res.alive : Res Unit → Bool
  | .panic => false
  | _ => true

theorem dropSessions_pieces (ord : Orders) : ∀ (l : List (U64 × Session)) (s : HS),
    dropSessions ord l s.rm s.dp = ((Act.all (l.flatMap (fun e => dropPieces ord e.2)) s).1.rm, (Act.all (l.flatMap (fun e => dropPieces ord e.2)) s).1.dp,
      (Act.all (l.flatMap (fun e => dropPieces ord e.2)) s).2.alive) ∧
    (Act.all (l.flatMap (fun e => dropPieces ord e.2)) s).2 ≠ .err
  | [], s => ⟨rfl, by intro h; cases h⟩
  | (k, x) :: l, s => by
    have hne := deleteSessionBody_not_err ord x ⟨x, GoMap.empty, s.rm, s.dp, [], []⟩
    have e1 : (((k, x) :: l).flatMap (fun e => dropPieces ord e.2)) = dropPieces ord x ++ l.flatMap (fun e => dropPieces ord e.2) := rfl
    rw [e1, Act.all_append]
    show dropSessions ord ((k, x) :: l) s.rm s.dp = ((Act.bind (Act.all (dropPieces ord x)) _ s).1.rm, (Act.bind (Act.all (dropPieces ord x)) _ s).1.dp,
      (Act.bind (Act.all (dropPieces ord x)) _ s).2.alive) ∧ (Act.bind (Act.all (dropPieces ord x)) _ s).2 ≠ .err
    unfold Act.bind
    rw [drop_pieces]
    unfold dropSessions
    rcases hx : deleteSessionBody ord x ⟨x, GoMap.empty, s.rm, s.dp, [], []⟩ with ⟨t, r⟩
    rw [hx] at hne
    cases r with
    | ok _ => exact dropSessions_pieces ord l t
    | err => exact absurd rfl hne
    | panic => exact ⟨rfl, by intro h; cases h⟩

theorem establish_body {n : Node} {addr : Addr} {r : EstReq} {remote : U64} {a : Assoc} (hv : validateRequest r.nodeId r.cpFseid = some remote)
    (ha : n.assocs.get? addr = some a) : n.establish addr r = n.estResult addr r remote a
      (establishBody n.ueip r (n.hs (Session.new (a.nextSessionID + 1) remote))).1 (establishBody n.ueip r (n.hs (Session.new (a.nextSessionID + 1) remote))).2 := by
  simp only [Node.establish, hv, ha, Assoc.newLocalSEID]
  cases (establishBody n.ueip r (n.hs (Session.new (a.nextSessionID + 1) remote))).2 <;> rfl

/-- The pieces in a row are the event. -/
theorem step_pieces {n : Node} {e : Ev} {s : HS} {l : List Piece} (h : n.job e = some (s, l)) :
    n.step e = n.conclude e (Act.all l s).1 (Act.all l s).2 := by
  cases e with
  | establish addr r =>
    simp only [Node.job] at h
    cases hv : validateRequest r.nodeId r.cpFseid with
    | none => rw [hv] at h; cases h
    | some remote =>
      cases ha : n.assocs.get? addr with
      | none => rw [hv, ha] at h; cases h
      | some a =>
        rw [hv, ha] at h
        simp only [Option.some.injEq, Prod.mk.injEq] at h
        obtain ⟨rfl, rfl⟩ := h
        obtain ⟨h1, h2⟩ := validateRequest_some hv
        rw [← establish_pieces]
        have e1 := establish_body (n := n) hv ha
        rw [show n.step (.establish addr r) = n.establish addr r from rfl, e1]
        simp only [Node.conclude, h2, ha]
        cases (establishBody n.ueip r (n.hs (Session.new (a.nextSessionID + 1) remote))).2 <;> rfl
  | modify addr r ord =>
    simp only [Node.job] at h
    cases ha : n.assocs.get? addr with
    | none => rw [ha] at h; cases h
    | some a =>
      cases hs : a.sessions.get? r.seid with
      | none => rw [ha] at h; simp only [Option.bind_some, hs] at h; cases h
      | some x =>
        rw [ha] at h
        simp only [Option.bind_some, hs, Option.some.injEq, Prod.mk.injEq] at h
        obtain ⟨rfl, rfl⟩ := h
        rw [← modify_pieces]
        simp only [Node.step, Node.modify, hs, ha, Node.conclude]
        cases (modifyBody n.ueip ord r (n.hs (x.setRemote r.cpFseid))).2 <;> rfl
  | delete addr r ord =>
    simp only [Node.job] at h
    cases ha : n.assocs.get? addr with
    | none => rw [ha] at h; cases h
    | some a =>
      cases hs : a.sessions.get? r.seid with
      | none => rw [ha] at h; simp only [Option.bind_some, hs] at h; cases h
      | some x =>
        rw [ha] at h
        simp only [Option.bind_some, hs, Option.some.injEq, Prod.mk.injEq] at h
        obtain ⟨rfl, rfl⟩ := h
        rw [← delete_pieces]
        simp only [Node.step, Node.delete, hs, ha, Node.conclude]
        cases (deleteBody ord x (n.hs x)).2 <;> rfl
  | peerLost addr ord =>
    simp only [Node.job] at h
    cases ha : n.assocs.get? addr with
    | none => rw [ha] at h; cases h
    | some a =>
      rw [ha] at h
      simp only [Option.some.injEq, Prod.mk.injEq] at h
      obtain ⟨rfl, rfl⟩ := h
      obtain ⟨h1, h2⟩ := dropSessions_pieces ord (ord.sessions.run a.sessions.entries) (n.hs Session.nil)
      have h1' : dropSessions ord (ord.sessions.run a.sessions.entries) n.rm n.dp = _ := h1
      simp only [Node.step, Node.deleteAssociation, ha, Node.conclude, h1']
      cases hr : (Act.all ((ord.sessions.run a.sessions.entries).flatMap (fun e => dropPieces ord e.2)) (n.hs Session.nil)).2 with
      | ok _ => rfl
      | err => exact absurd hr h2
      | panic => rfl
  | assocSetup => cases h
  | assocSetupResp => cases h
  | assocUpdate => cases h
  | heartbeatReq => cases h
  | heartbeatResp => cases h
  | setConfig => cases h

/-- Without packets in between a run is the step. -/
theorem Node.runs_step (n : Node) (e : Ev) : n.Runs e (n.step e).1 (n.step e).2 := by
  cases h : n.job e with
  | none => exact .whole h
  | some x =>
    obtain ⟨s, l⟩ := x
    rw [step_pieces h]
    refine .pieces h ?_
    have : ∀ (l' : List Piece) (t : HS), Prog l s l' t (.ok ()) → Prog l s [] (Act.all l' t).1 (Act.all l' t).2 := by
      intro l'
      induction l' with
      | nil => intro t h; exact h
      | cons m l' ih =>
        intro t ht
        rcases hm : m t with ⟨t', r⟩
        by_cases hr : r = .ok ()
        · subst hr
          rw [Act.all_cons_ok _ hm]
          exact ih t' (.piece ht hm)
        · rw [Act.all_cons_fail _ hm hr]
          exact .failed ht hm hr
    exact this l s .start

/-! ### packets in between make no difference -/

/-- Handler states that differ in what packets do only: rate limiting timers, volumes. -/
structure Alike (s t : HS) : Prop where
  sess : t.sess = s.sess
  cache : t.cache = s.cache
  rm : t.rm = s.rm
  dp : TrafficEffect s.dp t.dp
  created : t.created = s.created
  reports : t.reports.map UsageReport.plain = s.reports.map UsageReport.plain

theorem TrafficEffect.rfl' (b : BpfObjects) : TrafficEffect b b := ⟨rfl, rfl, rfl, rfl, rfl, fun _ => rfl, rfl, rfl, rfl, rfl⟩
theorem TrafficEffect.trans' {a b c : BpfObjects} (h : TrafficEffect a b) (k : TrafficEffect b c) : TrafficEffect a c :=
  ⟨k.pdrUl.trans h.pdrUl, k.pdrDl4.trans h.pdrDl4, k.pdrDl6.trans h.pdrDl6, k.far.trans h.far, k.qerSize.trans h.qerSize,
   fun i => (k.qerVal i).trans (h.qerVal i), k.urrSize.trans h.urrSize, k.farIds.trans h.farIds, k.qerIds.trans h.qerIds, k.urrIds.trans h.urrIds⟩
theorem TrafficEffect.symm' {a b : BpfObjects} (h : TrafficEffect a b) : TrafficEffect b a :=
  ⟨h.pdrUl.symm, h.pdrDl4.symm, h.pdrDl6.symm, h.far.symm, h.qerSize.symm, fun i => (h.qerVal i).symm, h.urrSize.symm, h.farIds.symm, h.qerIds.symm, h.urrIds.symm⟩
theorem Alike.rfl' (s : HS) : Alike s s := ⟨rfl, rfl, rfl, .rfl' _, rfl, rfl⟩

/-- What packets do: other QER and URR tables. -/
theorem TrafficEffect.shape {b b' : BpfObjects} (h : TrafficEffect b b') : ∃ q u, b' = { b with qer := q, urr := u } ∧ q.size = b.qer.size ∧
    (∀ i, { q.val i with startUL := 0, startDL := 0 } = { b.qer.val i with startUL := 0, startDL := 0 }) ∧ u.size = b.urr.size := by
  refine ⟨b'.qer, b'.urr, ?_, h.qerSize, h.qerVal, h.urrSize⟩
  obtain ⟨a1, a2, a3, a4, a5, a6, a7, a8, a9⟩ := b
  obtain ⟨b1, b2, b3, b4, b5, b6, b7, b8, b9⟩ := b'
  cases h.pdrUl; cases h.pdrDl4; cases h.pdrDl6; cases h.far; cases h.farIds; cases h.qerIds; cases h.urrIds
  rfl
theorem TrafficEffect.mk' {b : BpfObjects} {q : ArrMap QerInfo} {u : ArrMap UrrInfo} (h1 : q.size = b.qer.size)
    (h2 : ∀ i, { q.val i with startUL := 0, startDL := 0 } = { b.qer.val i with startUL := 0, startDL := 0 }) (h3 : u.size = b.urr.size) :
    TrafficEffect b { b with qer := q, urr := u } := ⟨rfl, rfl, rfl, rfl, h1, h2, h3, rfl, rfl, rfl⟩

/-- The piece does the same in states that packets have made different. -/
def Blind {α : Type} (m : Act HS α) : Prop := ∀ s t, Alike s t → (m s).2 = (m t).2 ∧ Alike (m s).1 (m t).1

theorem Alike.shape {s t : HS} (h : Alike s t) : ∃ q u rep, t = { s with dp := { s.dp with qer := q, urr := u }, reports := rep } ∧ q.size = s.dp.qer.size ∧
    (∀ i, { q.val i with startUL := 0, startDL := 0 } = { s.dp.qer.val i with startUL := 0, startDL := 0 }) ∧ u.size = s.dp.urr.size ∧
    rep.map UsageReport.plain = s.reports.map UsageReport.plain := by
  obtain ⟨q, u, e, h1, h2, h3⟩ := h.dp.shape
  refine ⟨q, u, t.reports, ?_, h1, h2, h3, h.reports⟩
  obtain ⟨s1, s2, s3, s4, s5, s6⟩ := s
  obtain ⟨t1, t2, t3, t4, t5, t6⟩ := t
  cases h.sess; cases h.cache; cases h.rm; cases h.created
  cases e
  rfl

theorem Blind.bind {α β : Type} {m : Act HS α} {f : α → Act HS β} (hm : Blind m) (hf : ∀ a, Blind (f a)) : Blind (m >>= f) := by
  intro s t h
  obtain ⟨h1, h2⟩ := hm s t h
  show (Act.bind m f s).2 = (Act.bind m f t).2 ∧ Alike (Act.bind m f s).1 (Act.bind m f t).1
  unfold Act.bind
  rcases hs : m s with ⟨s', r⟩
  rcases ht : m t with ⟨t', r'⟩
  rw [hs, ht] at h1 h2
  simp only at h1 h2
  subst h1
  cases r with
  | ok a => exact hf a s' t' h2
  | err => exact ⟨rfl, h2⟩
  | panic => exact ⟨rfl, h2⟩
theorem Blind.pure {α : Type} (a : α) : Blind (Pure.pure a : Act HS α) := fun _ _ h => ⟨rfl, h⟩
theorem Blind.fail {α : Type} : Blind (Act.fail : Act HS α) := fun _ _ h => ⟨rfl, h⟩
theorem Blind.ignore {m : Act HS Unit} (hm : Blind m) : Blind (Act.ignore m) := by
  intro s t h
  obtain ⟨h1, h2⟩ := hm s t h
  unfold Act.ignore
  rcases hs : m s with ⟨s', r⟩
  rcases ht : m t with ⟨t', r'⟩
  rw [hs, ht] at h1 h2
  simp only at h1 h2
  subst h1
  cases r <;> exact ⟨rfl, h2⟩

theorem ArrMap.update_sizes {V : Type} {a b : ArrMap V} (h : b.size = a.size) (i : U32) (v : V) :
    (a.update i v = none ∧ b.update i v = none) ∨ (a.update i v = some { a with val := fun j => if j = i then v else a.val j } ∧
      b.update i v = some { b with val := fun j => if j = i then v else b.val j }) := by
  unfold ArrMap.update
  rw [h]
  by_cases hi : i.toNat < a.size.toNat
  · right; rw [if_pos hi, if_pos hi]; exact ⟨rfl, rfl⟩
  · left; rw [if_neg hi, if_neg hi]; exact ⟨rfl, rfl⟩

theorem blind_display (ie : PdrIE) : Blind (displayPdr ie) := by
  intro s t h
  unfold displayPdr
  cases ie.pdi with
  | none => exact ⟨rfl, h⟩
  | some p =>
    cases hp : p.source with
    | true => simp only [hp, if_true]; exact ⟨trivial, h⟩
    | false => simp only [hp]; exact ⟨rfl, h⟩

theorem blind_createFar (ie : FarIE) : Blind (createFar ie) := by
  intro s t h
  obtain ⟨q, u, rep, rfl, h1, h2, h3, h4⟩ := h.shape
  unfold createFar
  cases composeFarInfo ie {} with
  | err => exact ⟨rfl, h⟩
  | panic => exact ⟨rfl, h⟩
  | ok f =>
    simp only [BpfObjects.newFar]
    cases s.dp.farIds.getNext.2 with
    | none => exact ⟨rfl, ⟨rfl, rfl, rfl, .mk' h1 h2 h3, rfl, h4⟩⟩
    | some g =>
      simp only
      cases s.dp.far.update g f with
      | none => exact ⟨rfl, ⟨rfl, rfl, rfl, .mk' h1 h2 h3, rfl, h4⟩⟩
      | some a => exact ⟨rfl, ⟨rfl, rfl, rfl, .mk' h1 h2 h3, rfl, h4⟩⟩

theorem blind_updateFar (ie : FarIE) : Blind (updateFar ie) := by
  intro s t h
  obtain ⟨q, u, rep, rfl, h1, h2, h3, h4⟩ := h.shape
  unfold updateFar
  cases ie.farId with
  | none => exact ⟨rfl, h⟩
  | some id =>
    simp only
    cases composeFarInfo ie (s.sess.getFar id).info with
    | err => exact ⟨rfl, h⟩
    | panic => exact ⟨rfl, h⟩
    | ok f =>
      simp only [BpfObjects.updateFar]
      cases s.dp.far.update (s.sess.getFar id).gid f with
      | none => exact ⟨rfl, ⟨rfl, rfl, rfl, .mk' h1 h2 h3, rfl, h4⟩⟩
      | some a => exact ⟨rfl, ⟨rfl, rfl, rfl, .mk' h1 h2 h3, rfl, h4⟩⟩

theorem blind_removeFar (id : Option U32) : Blind (removeFar id) := by
  intro s t h
  obtain ⟨q, u, rep, rfl, h1, h2, h3, h4⟩ := h.shape
  simp only [removeFar, BpfObjects.deleteFar]
  cases s.dp.far.update (s.sess.getFar (id.getD 0)).gid {} with
  | none => exact ⟨rfl, ⟨rfl, rfl, rfl, .mk' h1 h2 h3, rfl, h4⟩⟩
  | some a => exact ⟨rfl, ⟨rfl, rfl, rfl, .mk' h1 h2 h3, rfl, h4⟩⟩

theorem qer_write {q q0 : ArrMap QerInfo} (h2 : ∀ i, { q.val i with startUL := 0, startDL := 0 } = { q0.val i with startUL := 0, startDL := 0 })
    (g : U32) (v : QerInfo) (i : U32) : { (if i = g then v else q.val i : QerInfo) with startUL := 0, startDL := 0 } =
      { (if i = g then v else q0.val i : QerInfo) with startUL := 0, startDL := 0 } := by
  by_cases h : i = g
  · rw [if_pos h, if_pos h]
  · rw [if_neg h, if_neg h]; exact h2 i

theorem blind_createQer (ie : QerIE) : Blind (createQer ie) := by
  intro s t h
  obtain ⟨q, u, rep, rfl, h1, h2, h3, h4⟩ := h.shape
  unfold createQer
  cases ie.qerId with
  | none => exact ⟨rfl, h⟩
  | some id =>
    simp only [BpfObjects.newQer]
    cases s.dp.qerIds.getNext.2 with
    | none => exact ⟨rfl, ⟨rfl, rfl, rfl, .mk' h1 h2 h3, rfl, h4⟩⟩
    | some g =>
      simp only
      rcases ArrMap.update_sizes h1 g (mergeQer {} ie) with ⟨e1, e2⟩ | ⟨e1, e2⟩
      · rw [e1, e2]; exact ⟨rfl, ⟨rfl, rfl, rfl, .mk' h1 h2 h3, rfl, h4⟩⟩
      · rw [e1, e2]; exact ⟨rfl, ⟨rfl, rfl, rfl, .mk' h1 (qer_write h2 g _) h3, rfl, h4⟩⟩

theorem blind_updateQer (ie : QerIE) : Blind (updateQer ie) := by
  intro s t h
  obtain ⟨q, u, rep, rfl, h1, h2, h3, h4⟩ := h.shape
  unfold updateQer
  cases ie.qerId with
  | none => exact ⟨rfl, h⟩
  | some id =>
    simp only [BpfObjects.updateQer]
    rcases ArrMap.update_sizes h1 (s.sess.getQer id).gid (mergeQer (s.sess.getQer id).info ie) with ⟨e1, e2⟩ | ⟨e1, e2⟩
    · rw [e1, e2]; exact ⟨rfl, ⟨rfl, rfl, rfl, .mk' h1 h2 h3, rfl, h4⟩⟩
    · rw [e1, e2]; exact ⟨rfl, ⟨rfl, rfl, rfl, .mk' h1 (qer_write h2 _ _) h3, rfl, h4⟩⟩

theorem blind_removeQer (id : Option U32) : Blind (removeQer id) := by
  intro s t h
  obtain ⟨q, u, rep, rfl, h1, h2, h3, h4⟩ := h.shape
  unfold removeQer
  cases id with
  | none => exact ⟨rfl, h⟩
  | some id =>
    simp only [BpfObjects.deleteQer]
    rcases ArrMap.update_sizes h1 (s.sess.getQer id).gid {} with ⟨e1, e2⟩ | ⟨e1, e2⟩
    · rw [e1, e2]; exact ⟨rfl, ⟨rfl, rfl, rfl, .mk' h1 h2 h3, rfl, h4⟩⟩
    · rw [e1, e2]; exact ⟨rfl, ⟨rfl, rfl, rfl, .mk' h1 (qer_write h2 _ _) h3, rfl, h4⟩⟩

theorem blind_createUrr (id : Option U32) : Blind (createUrr id) := by
  intro s t h
  obtain ⟨q, u, rep, rfl, h1, h2, h3, h4⟩ := h.shape
  unfold createUrr
  cases id with
  | none => exact ⟨rfl, h⟩
  | some id =>
    simp only [BpfObjects.newUrr]
    cases s.dp.urrIds.getNext.2 with
    | none => exact ⟨rfl, ⟨rfl, rfl, rfl, .mk' h1 h2 h3, rfl, h4⟩⟩
    | some g =>
      simp only
      rcases ArrMap.update_sizes h3 g ({} : UrrInfo) with ⟨e1, e2⟩ | ⟨e1, e2⟩
      · rw [e1, e2]; exact ⟨rfl, ⟨rfl, rfl, rfl, .mk' h1 h2 h3, rfl, h4⟩⟩
      · rw [e1, e2]; exact ⟨rfl, ⟨rfl, rfl, rfl, .mk' h1 h2 h3, rfl, h4⟩⟩

theorem blind_updateUrr (id : Option U32) : Blind (updateUrr id) := by
  intro s t h
  obtain ⟨q, u, rep, rfl, h1, h2, h3, h4⟩ := h.shape
  unfold updateUrr
  cases id with
  | none => exact ⟨rfl, h⟩
  | some id =>
    simp only [BpfObjects.updateUrr]
    rcases ArrMap.update_sizes h3 (s.sess.getUrr id).gid (s.sess.getUrr id).info with ⟨e1, e2⟩ | ⟨e1, e2⟩
    · rw [e1, e2]; exact ⟨rfl, ⟨rfl, rfl, rfl, .mk' h1 h2 h3, rfl, h4⟩⟩
    · rw [e1, e2]; exact ⟨rfl, ⟨rfl, rfl, rfl, .mk' h1 h2 h3, rfl, h4⟩⟩

theorem deleteUrr_shape (b : BpfObjects) {q : ArrMap QerInfo} {u : ArrMap UrrInfo} (h1 : q.size = b.qer.size)
    (h2 : ∀ i, { q.val i with startUL := 0, startDL := 0 } = { b.qer.val i with startUL := 0, startDL := 0 }) (h3 : u.size = b.urr.size) (g : U32) :
    TrafficEffect (b.deleteUrr g).1 (({ b with qer := q, urr := u } : BpfObjects).deleteUrr g).1 ∧
    (((b.deleteUrr g).2 = none ∧ (({ b with qer := q, urr := u } : BpfObjects).deleteUrr g).2 = none) ∨
     ∃ v w, (b.deleteUrr g).2 = some v ∧ (({ b with qer := q, urr := u } : BpfObjects).deleteUrr g).2 = some w) := by
  simp only [BpfObjects.deleteUrr, ArrMap.lookup, h3]
  by_cases hi : g.toNat < b.urr.size.toNat
  · rw [if_pos hi, if_pos hi]
    simp only
    rcases ArrMap.update_sizes h3 g ({} : UrrInfo) with ⟨e1, e2⟩ | ⟨e1, e2⟩
    · rw [e1, e2]
      exact ⟨.mk' h1 h2 h3, .inl ⟨rfl, rfl⟩⟩
    · rw [e1, e2]
      exact ⟨.mk' h1 h2 h3, .inr ⟨_, _, rfl, rfl⟩⟩
  · rw [if_neg hi, if_neg hi]
    exact ⟨.mk' h1 h2 h3, .inl ⟨rfl, rfl⟩⟩

theorem plain_report (id : U32) (x : SUrr) (v w : UrrInfo) : (mkReport id x v).plain = (mkReport id x w).plain := rfl
theorem plain_snoc {a b : List UsageReport} (h : a.map UsageReport.plain = b.map UsageReport.plain) (id : U32) (x : SUrr) (v w : UrrInfo) :
    (a ++ [mkReport id x v]).map UsageReport.plain = (b ++ [mkReport id x w]).map UsageReport.plain := by
  rw [List.map_append, List.map_append, h]; rfl

theorem blind_removeUrr (id : Option U32) : Blind (removeUrr id) := by
  intro s t h
  obtain ⟨q, u, rep, rfl, h1, h2, h3, h4⟩ := h.shape
  unfold removeUrr
  cases id with
  | none => exact ⟨rfl, h⟩
  | some id =>
    simp only
    obtain ⟨d1, d2⟩ := deleteUrr_shape s.dp h1 h2 h3 (s.sess.getUrr id).gid
    rcases hx : s.dp.deleteUrr (s.sess.getUrr id).gid with ⟨b1, o1⟩
    rcases hy : ({ s.dp with qer := q, urr := u } : BpfObjects).deleteUrr (s.sess.getUrr id).gid with ⟨b2, o2⟩
    rw [hx, hy] at d1 d2
    rcases d2 with ⟨rfl, rfl⟩ | ⟨v, w, rfl, rfl⟩
    · exact ⟨rfl, ⟨rfl, rfl, rfl, d1, rfl, h4⟩⟩
    · exact ⟨rfl, ⟨rfl, rfl, rfl, d1, rfl, plain_snoc h4 _ _ _ _⟩⟩

theorem blind_dropUrr (e : U32 × SUrr) : Blind (dropUrr e) := by
  intro s t h
  obtain ⟨q, u, rep, rfl, h1, h2, h3, h4⟩ := h.shape
  unfold dropUrr
  simp only
  obtain ⟨d1, d2⟩ := deleteUrr_shape s.dp h1 h2 h3 e.2.gid
  rcases hx : s.dp.deleteUrr e.2.gid with ⟨b1, o1⟩
  rcases hy : ({ s.dp with qer := q, urr := u } : BpfObjects).deleteUrr e.2.gid with ⟨b2, o2⟩
  rw [hx, hy] at d1 d2
  rcases d2 with ⟨rfl, rfl⟩ | ⟨v, w, rfl, rfl⟩
  · exact ⟨rfl, ⟨rfl, rfl, rfl, d1, rfl, h4⟩⟩
  · exact ⟨rfl, ⟨rfl, rfl, rfl, d1, rfl, plain_snoc h4 _ _ _ _⟩⟩

theorem blind_dropFar (e : U32 × SFar) : Blind (dropFar e) := by
  intro s t h
  obtain ⟨q, u, rep, rfl, h1, h2, h3, h4⟩ := h.shape
  simp only [dropFar, BpfObjects.deleteFar]
  cases s.dp.far.update e.2.gid {} with
  | none => exact ⟨rfl, ⟨rfl, rfl, rfl, .mk' h1 h2 h3, rfl, h4⟩⟩
  | some a => exact ⟨rfl, ⟨rfl, rfl, rfl, .mk' h1 h2 h3, rfl, h4⟩⟩

theorem blind_dropQer (e : U32 × SQer) : Blind (dropQer e) := by
  intro s t h
  obtain ⟨q, u, rep, rfl, h1, h2, h3, h4⟩ := h.shape
  simp only [dropQer, BpfObjects.deleteQer]
  rcases ArrMap.update_sizes h1 e.2.gid {} with ⟨e1, e2⟩ | ⟨e1, e2⟩
  · rw [e1, e2]; exact ⟨rfl, ⟨rfl, rfl, rfl, .mk' h1 h2 h3, rfl, h4⟩⟩
  · rw [e1, e2]; exact ⟨rfl, ⟨rfl, rfl, rfl, .mk' h1 (qer_write h2 _ _) h3, rfl, h4⟩⟩

theorem blind_enter (x : Session) : Blind (enter x) := by
  intro s t h
  exact ⟨rfl, ⟨rfl, rfl, h.rm, h.dp, rfl, rfl⟩⟩

/-! A piece that neither reads nor writes the tables and the reports. -/
theorem blind_of {α : Type} {m : Act HS α}
    (h : ∀ (s : HS) (b : BpfObjects) (rep : List UsageReport), (m { s with dp := b, reports := rep }).2 = (m s).2 ∧
      (m { s with dp := b, reports := rep }).1 = { (m s).1 with dp := b, reports := rep } ∧ (m s).1.dp = s.dp ∧ (m s).1.reports = s.reports) : Blind m := by
  intro s t ha
  have et : t = { s with dp := t.dp, reports := t.reports } := by
    obtain ⟨s1, s2, s3, s4, s5, s6⟩ := s
    obtain ⟨t1, t2, t3, t4, t5, t6⟩ := t
    cases ha.sess; cases ha.cache; cases ha.rm; cases ha.created
    rfl
  obtain ⟨h1, h2, h3, h4⟩ := h s t.dp t.reports
  rw [← et] at h1 h2
  refine ⟨h1.symm, ?_⟩
  rw [h2]
  exact ⟨rfl, rfl, rfl, by show TrafficEffect (m s).1.dp t.dp; rw [h3]; exact ha.dp, rfl, by show t.reports.map _ = (m s).1.reports.map _; rw [h4]; exact ha.reports⟩

theorem blind_pdrFteid (f : Fteid) (p : SPdr) : Blind (pdrFteid f p) := by
  refine blind_of fun s b rep => ?_
  simp only [pdrFteid]
  cases f.ch with
  | false => exact ⟨rfl, rfl, rfl, rfl⟩
  | true =>
    simp only [if_true]
    cases f.chooseId.bind s.cache.get? with
    | some t => exact ⟨rfl, rfl, rfl, rfl⟩
    | none =>
      simp only
      rcases allocTeid s.sess.remoteSEID p.pdrId s.rm with ⟨rm, o⟩
      cases o with
      | none => exact ⟨rfl, rfl, rfl, rfl⟩
      | some t => cases f.chooseId <;> exact ⟨rfl, rfl, rfl, rfl⟩

theorem blind_pdrUeIp (ue : Bool) (u : UeIp) (p : SPdr) : Blind (pdrUeIp ue u p) := by
  refine blind_of fun s b rep => ?_
  simp only [pdrUeIp]
  generalize (if (ue && u.chv4) = true then
      match allocIp s.sess.remoteSEID s.rm with
      | (rm, some ip) => (rm, some ip, true)
      | (rm, none) => (rm, u.ipv4, p.allocated)
    else (s.rm, u.ipv4, p.allocated) : Option ResourceManager × Option Ip4 × Bool) = r
  obtain ⟨r1, r2, r3⟩ := r
  cases r2 with
  | some ip => exact ⟨rfl, rfl, rfl, rfl⟩
  | none => cases u.ipv6 <;> exact ⟨rfl, rfl, rfl, rfl⟩

theorem blind_extract (ue : Bool) (ie : PdrIE) (p : SPdr) : Blind (extractPdr ue ie p) := by
  intro s t h
  have hs := h.sess
  simp only [extractPdr, hs]
  cases ie.pdi with
  | none => exact ⟨rfl, h⟩
  | some pdi =>
    simp only
    cases pdrSdf ie (pdrRefs s.sess ie p.info) with
    | none => exact ⟨rfl, h⟩
    | some info =>
      simp only
      cases pdi.fteid with
      | some f =>
        cases f with
        | none => exact ⟨rfl, h⟩
        | some f => exact blind_pdrFteid f _ s t h
      | none =>
        simp only
        cases pdi.ueip with
        | none => exact ⟨rfl, h⟩
        | some u =>
          cases u with
          | none => exact ⟨rfl, h⟩
          | some u => exact blind_pdrUeIp ue u _ s t h

theorem blind_modify {f : HS → HS} (hf : ∀ s t, Alike s t → Alike (f s) (f t)) : Blind (Act.modify f) := fun s t h => ⟨rfl, hf s t h⟩

theorem blind_apply (p : SPdr) : Blind (applyPdr p) := by
  intro s t h
  obtain ⟨q, u, rep, rfl, h1, h2, h3, h4⟩ := h.shape
  unfold applyPdr
  cases p.ipv4 with
  | some ip =>
    simp only [BpfObjects.putPdrDownlink]
    cases s.dp.pdrDl4.put ip (pdrToStore (s.dp.pdrDl4.lookup ip) p.info) with
    | none => exact ⟨rfl, ⟨rfl, rfl, rfl, .mk' h1 h2 h3, rfl, h4⟩⟩
    | some a => exact ⟨rfl, ⟨rfl, rfl, rfl, .mk' h1 h2 h3, rfl, h4⟩⟩
  | none =>
    cases p.ipv6 with
    | some ip =>
      simp only [BpfObjects.putDownlinkPdrIp6]
      cases s.dp.pdrDl6.put ip (pdrToStore (s.dp.pdrDl6.lookup ip) p.info) with
      | none => exact ⟨rfl, ⟨rfl, rfl, rfl, .mk' h1 h2 h3, rfl, h4⟩⟩
      | some a => exact ⟨rfl, ⟨rfl, rfl, rfl, .mk' h1 h2 h3, rfl, h4⟩⟩
    | none =>
      simp only [BpfObjects.putPdrUplink]
      cases s.dp.pdrUl.put p.teid (pdrToStore (s.dp.pdrUl.lookup p.teid) p.info) with
      | none => exact ⟨rfl, ⟨rfl, rfl, rfl, .mk' h1 h2 h3, rfl, h4⟩⟩
      | some a => exact ⟨rfl, ⟨rfl, rfl, rfl, .mk' h1 h2 h3, rfl, h4⟩⟩

theorem blind_createPdr (ue : Bool) (ie : PdrIE) : Blind (createPdr ue ie) := by
  unfold createPdr
  cases ie.pdrId with
  | none => exact .fail
  | some id =>
    refine .bind (blind_extract ue ie _) fun p => .bind (blind_modify fun s t h => ?_) fun _ => .bind (blind_apply p) fun _ => blind_modify fun s t h => ?_
    · exact ⟨by show t.sess.putPdr _ _ = s.sess.putPdr _ _; rw [h.sess], h.cache, h.rm, h.dp, h.created, h.reports⟩
    · exact ⟨h.sess, h.cache, h.rm, h.dp, by show t.created ++ [p] = s.created ++ [p]; rw [h.created], h.reports⟩

theorem blind_updatePdr (ue : Bool) (ie : PdrIE) : Blind (updatePdr ue ie) := by
  unfold updatePdr
  cases ie.pdrId with
  | none => exact .fail
  | some id =>
    intro s t h
    have e : ∀ s : HS, (do
        let s ← Act.get
        let p ← extractPdr ue ie (s.sess.getPdr (id.zeroExtend 32))
        Act.modify (fun s => { s with sess := s.sess.putPdr (id.zeroExtend 32) p })
        applyPdr p : Act HS Unit) s = (do
        let p ← extractPdr ue ie (s.sess.getPdr (id.zeroExtend 32))
        Act.modify (fun s => { s with sess := s.sess.putPdr (id.zeroExtend 32) p })
        applyPdr p : Act HS Unit) s := fun s => rfl
    simp only [e, h.sess]
    refine Blind.bind (blind_extract ue ie _) (fun p => .bind (blind_modify fun s t h => ?_) fun _ => blind_apply p) s t h
    exact ⟨by show t.sess.putPdr _ _ = s.sess.putPdr _ _; rw [h.sess], h.cache, h.rm, h.dp, h.created, h.reports⟩

theorem blind_release (ord : Orders) : Blind (releaseTeids ord) := by
  refine blind_of fun s b rep => ?_
  unfold releaseTeids
  obtain ⟨s1, s2, s3, s4, s5, s6⟩ := s
  cases s3 <;> exact ⟨rfl, rfl, rfl, rfl⟩

theorem blind_deleteEntry (p : SPdr) : Blind (deletePdrEntry p) := by
  intro s t h
  obtain ⟨q, u, rep, rfl, h1, h2, h3, h4⟩ := h.shape
  unfold deletePdrEntry
  cases p.ipv4 with
  | some ip =>
    simp only [BpfObjects.deletePdrDownlink]
    cases s.dp.pdrDl4.delete ip with
    | none => exact ⟨rfl, ⟨rfl, rfl, rfl, .mk' h1 h2 h3, rfl, h4⟩⟩
    | some a => exact ⟨rfl, ⟨rfl, rfl, rfl, .mk' h1 h2 h3, rfl, h4⟩⟩
  | none =>
    cases p.ipv6 with
    | some ip =>
      simp only [BpfObjects.deleteDownlinkPdrIp6]
      cases s.dp.pdrDl6.delete ip with
      | none => exact ⟨rfl, ⟨rfl, rfl, rfl, .mk' h1 h2 h3, rfl, h4⟩⟩
      | some a => exact ⟨rfl, ⟨rfl, rfl, rfl, .mk' h1 h2 h3, rfl, h4⟩⟩
    | none =>
      simp only [BpfObjects.deletePdrUplink]
      cases (s.cache.get? (p.teid.truncate 8)).isSome with
      | true => exact ⟨rfl, ⟨rfl, rfl, rfl, .mk' h1 h2 h3, rfl, h4⟩⟩
      | false =>
        cases s.dp.pdrUl.delete p.teid with
        | none => exact ⟨rfl, ⟨rfl, rfl, rfl, .mk' h1 h2 h3, rfl, h4⟩⟩
        | some a => exact ⟨rfl, ⟨rfl, rfl, rfl, .mk' h1 h2 h3, rfl, h4⟩⟩

theorem blind_deletePdr (ord : Orders) (p : SPdr) : Blind (deletePdr ord p) := by
  unfold deletePdr
  refine .bind (blind_deleteEntry p) fun _ => ?_
  split
  · exact blind_release ord
  · exact .pure ()

theorem blind_removePdr (ord : Orders) (id : Option U16) : Blind (removePdr ord id) := by
  intro s t h
  have e : ∀ s : HS, removePdr ord id s = (match s.sess.pdrs.get? (BitVec.zeroExtend 32 (id.getD 0)) with
      | none => pure ()
      | some p => do
        Act.modify (fun s => { s with sess := s.sess.removePdr (BitVec.zeroExtend 32 (id.getD 0)) })
        deletePdr ord p : Act HS Unit) s := fun s => rfl
  rw [e, e, h.sess]
  cases s.sess.pdrs.get? (BitVec.zeroExtend 32 (id.getD 0)) with
  | none => exact ⟨rfl, h⟩
  | some p =>
    refine Blind.bind (blind_modify fun s t h => ?_) (fun _ => blind_deletePdr ord p) s t h
    exact ⟨by show t.sess.removePdr _ = s.sess.removePdr _; rw [h.sess], h.cache, h.rm, h.dp, h.created, h.reports⟩

/-- No piece of any event notices packets. -/
theorem job_blind {n : Node} {e : Ev} {s : HS} {l : List Piece} (h : n.job e = some (s, l)) : ∀ m ∈ l, Blind m := by
  cases e with
  | establish addr r =>
    simp only [Node.job] at h
    split at h
    · cases h
      intro m hm
      simp only [estPieces, List.mem_append, List.mem_map] at hm
      rcases hm with ⟨x, -, rfl⟩ | ⟨x, -, rfl⟩ | ⟨x, -, rfl⟩ | ⟨x, -, rfl⟩ | ⟨x, -, rfl⟩
      · exact blind_display x
      · exact blind_createFar x
      · exact blind_createQer x
      · exact blind_createUrr x
      · exact blind_createPdr _ x
    · cases h
  | modify addr r ord =>
    simp only [Node.job] at h
    split at h
    · cases h
      intro m hm
      simp only [modPieces, List.mem_append, List.mem_map] at hm
      rcases hm with ⟨x, -, rfl⟩ | ⟨x, -, rfl⟩ | ⟨x, -, rfl⟩ | ⟨x, -, rfl⟩ | ⟨x, -, rfl⟩ | ⟨x, -, rfl⟩ | ⟨x, -, rfl⟩ | ⟨x, -, rfl⟩ | ⟨x, -, rfl⟩ |
        ⟨x, -, rfl⟩ | ⟨x, -, rfl⟩ | ⟨x, -, rfl⟩ | ⟨x, -, rfl⟩ | ⟨x, -, rfl⟩
      · exact blind_display x
      · exact blind_display x
      · exact blind_createFar x
      · exact blind_updateFar x
      · exact blind_removeFar x
      · exact blind_createQer x
      · exact blind_updateQer x
      · exact blind_removeQer x
      · exact blind_createUrr x
      · exact blind_updateUrr x
      · exact blind_removeUrr x
      · exact blind_createPdr _ x
      · exact blind_updatePdr _ x
      · exact blind_removePdr _ x
    · cases h
  | delete addr r ord =>
    simp only [Node.job] at h
    split at h
    · cases h
      intro m hm
      simp only [delPieces, List.mem_append, List.mem_map] at hm
      rcases hm with ⟨x, -, rfl⟩ | ⟨x, -, rfl⟩ | ⟨x, -, rfl⟩ | ⟨x, -, rfl⟩
      · exact blind_deletePdr _ _
      · exact blind_dropFar x
      · exact blind_dropQer x
      · exact blind_dropUrr x
    · cases h
  | peerLost addr ord =>
    simp only [Node.job] at h
    split at h
    · cases h
      intro m hm
      simp only [dropPieces, List.mem_flatMap, List.mem_cons, List.mem_append, List.mem_map] at hm
      obtain ⟨y, -, hm⟩ := hm
      rcases hm with rfl | ⟨x, -, rfl⟩ | ⟨x, -, rfl⟩ | ⟨x, -, rfl⟩
      · exact blind_enter y.2
      · exact (blind_dropFar x).ignore
      · exact (blind_dropQer x).ignore
      · exact (blind_deletePdr _ _).ignore
    · cases h
  | assocSetup => cases h
  | assocSetupResp => cases h
  | assocUpdate => cases h
  | heartbeatReq => cases h
  | heartbeatResp => cases h
  | setConfig => cases h

theorem Alike.packets {s t : HS} {b : BpfObjects} (h : Alike s t) (hb : TrafficEffect t.dp b) : Alike s { t with dp := b } :=
  ⟨h.sess, h.cache, h.rm, h.dp.trans' hb, h.created, h.reports⟩

/-- With packets in between, a run is at every moment where the run without packets is, up to what packets do: some of the pieces, from the
first on, have been executed. -/
theorem Prog.without {l : List Piece} {s : HS} (hl : ∀ m ∈ l, Blind m) {l' : List Piece} {t : HS} {r : Res Unit} (h : Prog l s l' t r) :
    ∃ l1 l2 t0, l = l1 ++ l2 ∧ (r = .ok () → l2 = l') ∧ (r ≠ .ok () → l' = []) ∧ Act.all l1 s = (t0, r) ∧ Alike t0 t := by
  induction h with
  | start => exact ⟨[], l, s, rfl, fun _ => rfl, fun h => absurd rfl h, rfl, .rfl' s⟩
  | @piece m l' t t' _ hm ih =>
    obtain ⟨l1, l2, t0, e, h2, -, a1, a2⟩ := ih
    have h2 := h2 rfl
    subst h2
    obtain ⟨b1, b2⟩ := hl m (by rw [e]; simp) t0 t a2
    rw [hm] at b1 b2
    refine ⟨l1 ++ [m], l', (m t0).1, by rw [e]; simp, fun _ => rfl, fun h => absurd rfl h, ?_, b2⟩
    rw [Act.all_append]
    show Act.bind (Act.all l1) (fun _ => Act.all [m]) s = _
    unfold Act.bind
    rw [a1]
    exact Act.all_cons_ok [] (Prod.ext rfl b1)
  | @failed m l' t t' r _ hm hr ih =>
    obtain ⟨l1, l2, t0, e, h2, -, a1, a2⟩ := ih
    have h2 := h2 rfl
    subst h2
    obtain ⟨b1, b2⟩ := hl m (by rw [e]; simp) t0 t a2
    rw [hm] at b1 b2
    refine ⟨l1 ++ [m], l', (m t0).1, by rw [e]; simp, fun h => absurd h hr, fun _ => rfl, ?_, b2⟩
    rw [Act.all_append]
    show Act.bind (Act.all l1) (fun _ => Act.all [m]) s = _
    unfold Act.bind
    rw [a1]
    exact Act.all_cons_fail [] (Prod.ext rfl b1) hr
  | @packets l' t r b _ hb ih =>
    obtain ⟨l1, l2, t0, e, h2, h3, a1, a2⟩ := ih
    exact ⟨l1, l2, t0, e, h2, h3, a1, a2.packets hb⟩

/-- A failure ends the run. -/
theorem Act.all_failed {l1 l2 : List Piece} {s t : HS} {r : Res Unit} (h : Act.all l1 s = (t, r)) (hr : r ≠ .ok ()) : Act.all (l1 ++ l2) s = (t, r) := by
  rw [Act.all_append]
  show Act.bind (Act.all l1) (fun _ => Act.all l2) s = _
  unfold Act.bind
  rw [h]
  cases r with
  | ok _ => exact absurd rfl hr
  | err => rfl
  | panic => rfl

/-- A complete run ends where the run without packets ends. -/
theorem Prog.whole {l : List Piece} {s : HS} (hl : ∀ m ∈ l, Blind m) {t : HS} {r : Res Unit} (h : Prog l s [] t r) :
    ∃ t0, Act.all l s = (t0, r) ∧ Alike t0 t := by
  obtain ⟨l1, l2, t0, e, h2, -, a1, a2⟩ := h.without hl
  refine ⟨t0, ?_, a2⟩
  by_cases hr : r = .ok ()
  · have := h2 hr
    subst this
    rw [e, List.append_nil]; exact a1
  · rw [e]; exact Act.all_failed a1 hr

/-- The records after the last piece do not depend on what packets do. -/
theorem conclude_alike (n : Node) (e : Ev) {s t : HS} (h : Alike s t) (r : Res Unit) (hj : (n.job e).isSome) :
    (n.conclude e t r).1 = { (n.conclude e s r).1 with dp := t.dp } ∧ (n.conclude e s r).1.dp = s.dp ∧
    (n.conclude e t r).2.plain = (n.conclude e s r).2.plain := by
  have e1 : t = { s with dp := t.dp, reports := t.reports } := by
    obtain ⟨s1, s2, s3, s4, s5, s6⟩ := s
    obtain ⟨t1, t2, t3, t4, t5, t6⟩ := t
    cases h.sess; cases h.cache; cases h.rm; cases h.created
    rfl
  have hr := h.reports
  revert e1 hr
  generalize t.dp = b
  generalize t.reports = rep
  intro e1 hr
  subst e1
  clear h
  cases e with
  | establish addr q =>
    simp only [Node.job] at hj
    simp only [Node.conclude]
    cases hv : validateRequest q.nodeId q.cpFseid with
    | none => rw [hv] at hj; simp at hj
    | some remote =>
      obtain ⟨h1, h2⟩ := validateRequest_some hv
      rw [h2]
      cases ha : n.assocs.get? addr with
      | none => rw [hv, ha] at hj; simp at hj
      | some a => cases r <;> exact ⟨rfl, rfl, rfl⟩
  | modify addr q ord =>
    simp only [Node.job] at hj
    simp only [Node.conclude]
    cases ha : n.assocs.get? addr with
    | none => rw [ha] at hj; simp at hj
    | some a =>
      cases r with
      | ok _ => exact ⟨rfl, rfl, by simp only [Outcome.plain, hr]⟩
      | err => exact ⟨rfl, rfl, rfl⟩
      | panic => exact ⟨rfl, rfl, rfl⟩
  | delete addr q ord =>
    simp only [Node.job] at hj
    simp only [Node.conclude]
    cases ha : n.assocs.get? addr with
    | none => rw [ha] at hj; simp at hj
    | some a =>
      rw [ha] at hj
      simp only [Option.bind_some] at hj
      simp only
      cases hs : a.sessions.get? q.seid with
      | none => rw [hs] at hj; simp at hj
      | some x =>
        cases r with
        | ok _ => exact ⟨rfl, rfl, by simp only [Outcome.plain, hr]⟩
        | err => exact ⟨rfl, rfl, rfl⟩
        | panic => exact ⟨rfl, rfl, rfl⟩
  | peerLost addr ord =>
    simp only [Node.conclude]
    cases r <;> exact ⟨rfl, rfl, rfl⟩
  | assocSetup => cases hj
  | assocSetupResp => cases hj
  | assocUpdate => cases hj
  | heartbeatReq => cases hj
  | heartbeatResp => cases hj
  | setConfig => cases hj

/-- An event with packets in between ends as without, up to what packets do to the tables, and with the same answer but for the volumes. -/
theorem Node.Runs.step {n n' : Node} {e : Ev} {o : Outcome} (h : n.Runs e n' o) :
    ∃ b, n' = { (n.step e).1 with dp := b } ∧ TrafficEffect (n.step e).1.dp b ∧ o.plain = (n.step e).2.plain := by
  cases h with
  | whole _ => exact ⟨(n.step e).1.dp, rfl, .rfl' _, rfl⟩
  | @pieces s t l r hj hp =>
    obtain ⟨t0, e0, a1⟩ := hp.whole (job_blind hj)
    have e1 := step_pieces hj
    rw [e0] at e1
    obtain ⟨c1, c2, c3⟩ := conclude_alike n e a1 r (by rw [hj]; rfl)
    rw [e1]
    refine ⟨t.dp, c1, ?_, c3⟩
    rw [c2]
    exact a1.dp
end Eupf
