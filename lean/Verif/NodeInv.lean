import Verif.Spec.Ledger
/- Invariants of the node from invariants of the handler bodies. Models no code. -/
namespace Eupf
open Act

/-- Session invariant `S` and resource invariant `G`, as an invariant of a handler body. -/
def HI (S : Session → Prop) (G : Option ResourceManager → BpfObjects → Prop) (s : HS) : Prop :=
  S s.sess ∧ G s.rm s.dp

/-- a body started with an empty TEID cache keeps `HI` -/
def Keeps (S : Session → Prop) (G : Option ResourceManager → BpfObjects → Prop) {α : Type} (m : Act HS α) : Prop :=
  ∀ s : HS, s.cache = GoMap.empty → HI S G s → HI S G (m s).1

theorem Act.Pres.keeps {S : Session → Prop} {G : Option ResourceManager → BpfObjects → Prop} {α : Type} {m : Act HS α}
    (h : Pres (HI S G) m) : Keeps S G m := fun _ _ hs => h.apply hs

def NI (S : Session → Prop) (G : Option ResourceManager → BpfObjects → Prop) (n : Node) : Prop :=
  (∀ a s x, n.session? a s = some x → S x) ∧ G n.rm n.dp

/-- What has to be shown about the bodies, for the events `P` allowed in the histories. -/
structure BodiesStep (P : Ev → Prop) (S : Session → Prop) (G : Option ResourceManager → BpfObjects → Prop) : Prop where
  new : ∀ l r, S (Session.new l r)
  remote : ∀ s x, S s → S (s.setRemote x)
  est : ∀ a r, P (.establish a r) → ∀ ue, Keeps S G (establishBody ue r)
  mod : ∀ a r o, P (.modify a r o) → ∀ ue, Keeps S G (modifyBody ue o r)
  del : ∀ o sess, S sess → Keeps S G (deleteBody o sess)
  dels : ∀ o sess, S sess → Keeps S G (deleteSessionBody o sess)
  rel : ∀ o k rm dp, G rm dp → G (releaseResources o k rm) dp

/-- And packets keep it. -/
structure BodiesKeep (P : Ev → Prop) (S : Session → Prop) (G : Option ResourceManager → BpfObjects → Prop) : Prop extends BodiesStep P S G where
  traffic : ∀ rm dp dp', G rm dp → TrafficEffect dp dp' → G rm dp'

variable {P : Ev → Prop} {S : Session → Prop} {G : Option ResourceManager → BpfObjects → Prop}

theorem dropSessions_inv (B : BodiesStep P S G) (ord : Orders) : ∀ (l : List (U64 × Session)) (rm : Option ResourceManager)
    (dp : BpfObjects), (∀ e ∈ l, S e.2) → G rm dp →
    ∀ rm' dp' b, dropSessions ord l rm dp = (rm', dp', b) → G rm' dp'
  | [], rm, dp, _, h, rm', dp', b, hd => by cases hd; exact h
  | (seid, sess) :: l, rm, dp, hs, h, rm', dp', b, hd => by
    unfold dropSessions at hd
    have h1 := (B.dels ord sess (hs (seid, sess) (by simp))) ⟨sess, GoMap.empty, rm, dp, [], []⟩ rfl
      ⟨hs (seid, sess) (by simp), h⟩
    simp only at hd
    split at hd
    · cases hd; exact h1.2
    · exact dropSessions_inv B ord l _ _ (fun e he => hs e (by simp [he])) h1.2 _ _ _ hd

theorem ni_step (B : BodiesStep P S G) {n : Node} (e : Ev) (hP : P e) (h : NI S G n) : NI S G (n.step e).1 := by
  have other : e.isNodeMsg = true → NI S G (n.step e).1 := by
    intro he
    rcases other_step n e he with h1 | ⟨b, hbn, h1⟩
    · rw [h1]; exact h
    · rw [h1]
      refine ⟨?_, h.2⟩
      intro a s x hx
      simp only [Node.session?, GoMap.get?_set] at hx
      split at hx
      · simp [Assoc.new] at hx
      · exact h.1 a s x hx
  have setSess : ∀ (addr : Addr) (a : Assoc) (k : U64) (y : Session) (m : U64) (q : U32) (rm dp), n.assocs.get? addr = some a →
      S y → G rm dp → NI S G { n with rm := rm, dp := dp, assocs := n.assocs.set addr ⟨m, q, a.sessions.set k y⟩ } := by
    intro addr a k y m q rm dp ha hy hg
    refine ⟨?_, hg⟩
    intro a' s' x hx
    simp only [Node.session?, GoMap.get?_set] at hx
    split at hx
    · simp only [Option.bind_some, GoMap.get?_set] at hx
      split at hx
      · cases hx; exact hy
      · subst a'; exact h.1 addr s' x (by simp [Node.session?, ha, hx])
    · exact h.1 a' s' x hx
  have keep : ∀ (addr : Addr) (a : Assoc) (m : U64) (q : U32) (rm dp), n.assocs.get? addr = some a →
      G rm dp → NI S G { n with rm := rm, dp := dp, assocs := n.assocs.set addr ⟨m, q, a.sessions⟩ } := by
    intro addr a m q rm dp ha hg
    refine ⟨?_, hg⟩
    intro a' s' x hx
    simp only [Node.session?, GoMap.get?_set] at hx
    split at hx
    · subst a'; exact h.1 addr s' x (by simpa [Node.session?, ha] using hx)
    · exact h.1 a' s' x hx
  cases e with
  | assocSetup => exact other rfl
  | assocSetupResp => exact other rfl
  | assocUpdate => exact other rfl
  | heartbeatReq => exact other rfl
  | heartbeatResp => exact other rfl
  | setConfig => exact h
  | establish addr r =>
    simp only [Node.step]
    cases establish_cases n addr r with
    | refused c hcc he => rw [he]; exact h
    | ran remote a hs res hid hcp ha hbody hl hrem he =>
      rw [he]
      have h1 := (B.est addr r hP n.ueip) (n.hs (Session.new (a.nextSessionID + 1) remote)) rfl
        ⟨B.new _ _, h.2⟩
      rw [hbody] at h1
      cases res with
      | ok _ => exact setSess addr a _ _ _ _ _ _ ha h1.1 h1.2
      | err => exact keep addr a _ _ _ _ ha h1.2
      | panic => exact keep addr a _ _ _ _ ha h1.2
  | modify addr r ord =>
    simp only [Node.step]
    cases modify_cases n addr r ord with
    | refused c x hcc hs he => rw [he]; exact h
    | ran a sess hs res ha hsess hbody hl hrem he =>
      rw [he]
      have h1 := (B.mod addr r ord hP n.ueip) (n.hs (sess.setRemote r.cpFseid)) rfl
        ⟨B.remote _ _ (h.1 addr r.seid sess (by simp [Node.session?, ha, hsess])), h.2⟩
      rw [hbody] at h1
      exact setSess addr a _ _ _ _ _ _ ha h1.1 h1.2
  | delete addr r ord =>
    simp only [Node.step]
    cases delete_cases n addr r ord with
    | refused c hcc hs he => rw [he]; exact h
    | ran a sess hs res ha hsess hbody he =>
      rw [he]
      have hS := h.1 addr r.seid sess (by simp [Node.session?, ha, hsess])
      have h1 := (B.del ord sess hS) (n.hs sess) rfl ⟨hS, h.2⟩
      rw [hbody] at h1
      cases res with
      | ok _ =>
        refine ⟨?_, B.rel _ _ _ _ h1.2⟩
        intro a' s' x hx
        simp only [Node.delResult, Node.session?, GoMap.get?_set] at hx
        split at hx
        · simp only [Option.bind_some, GoMap.get?_erase] at hx
          split at hx
          · cases hx
          · subst a'; exact h.1 addr s' x (by simp [Node.session?, ha, hx])
        · exact h.1 a' s' x hx
      | err => exact ⟨h.1, h1.2⟩
      | panic => exact ⟨h.1, h1.2⟩
  | peerLost addr ord =>
    simp only [Node.step, Node.deleteAssociation]
    cases ha : n.assocs.get? addr with
    | none => exact h
    | some a =>
      simp only
      rcases hd : dropSessions ord (ord.sessions.run a.sessions.entries) n.rm n.dp with ⟨rm, dp, b⟩
      have h1 := dropSessions_inv B ord _ n.rm n.dp (by
        intro e he
        have := (a.sessions.mem_entries_iff e.1 e.2).1 ((ord.sessions.perm _).mem_iff.1 he)
        exact h.1 addr e.1 e.2 (by simp [Node.session?, ha, this])) h.2 _ _ _ hd
      cases b with
      | false => exact ⟨h.1, h1⟩
      | true =>
        refine ⟨?_, h1⟩
        intro a' s' x hx
        simp only [Node.session?, GoMap.get?_erase] at hx
        split at hx
        · cases hx
        · exact h.1 a' s' x hx

theorem ni_hist (B : BodiesKeep P S G) {cfg : NodeCfg} {rm : Option ResourceManager} {dp : BpfObjects}
    (h0 : G rm dp) {h : List (Ev × Outcome)} {n : Node} (H : Hist (Node.init cfg rm dp) h n) (hP : ∀ x ∈ h, P x.1) :
    NI S G n := by
  induction H with
  | init => exact ⟨by intro a s x hx; simp [Node.session?, Node.init] at hx, h0⟩
  | step e _ hc ih =>
    exact ni_step B.toBodiesStep e (hP _ List.mem_cons_self) (ih (fun x hx => hP x (by simp [hx])))
  | traffic _ t ih => exact ⟨(ih hP).1, B.traffic _ _ _ (ih hP).2 t⟩

end Eupf
