import Verif.Props.Deletion
/-
C45: losing a peer.
-/
namespace Eupf
open Act

theorem ignore_fst {m : Act HS Unit} {s : HS} : (Act.ignore m s).1 = (m s).1 := by
  unfold Act.ignore
  rcases hm : m s with ⟨s', r⟩
  cases r <;> rfl

section
variable {f q u : U32}

/-- Everything a dropped session must have lost. -/
structure SessGone (sess : Session) (dp : BpfObjects) : Prop where
  far : ∀ i x, sess.fars.get? i = some x → farGone dp x.gid
  qer : ∀ i x, sess.qers.get? i = some x → qerGone dp x.gid
  pdr : (∀ i p, sess.pdrs.get? i = some p → ∀ j p', sess.pdrs.get? j = some p' → p.key = .ul p.teid → p'.key = .ul p'.teid →
        p.teid.truncate 8 = p'.teid.truncate 8 → p.teid = p'.teid) →
      ∀ i p, sess.pdrs.get? i = some p → dp.entry? p.key = none

/-- What was gone stays gone. -/
structure StillGone (dp dp' : BpfObjects) : Prop where
  far : ∀ g, farGone dp g → farGone dp' g
  qer : ∀ g, qerGone dp g → qerGone dp' g
  pdr : ∀ k, dp.entry? k = none → dp'.entry? k = none

theorem StillGone.refl (dp : BpfObjects) : StillGone dp dp := ⟨fun _ h => h, fun _ h => h, fun _ h => h⟩
theorem StillGone.trans {a b c : BpfObjects} (h1 : StillGone a b) (h2 : StillGone b c) : StillGone a c :=
  ⟨fun g h => h2.far g (h1.far g h), fun g h => h2.qer g (h1.qer g h), fun k h => h2.pdr k (h1.pdr k h)⟩
theorem SessGone.mono {sess : Session} {a b : BpfObjects} (h : SessGone sess a) (m : StillGone a b) : SessGone sess b :=
  ⟨fun i x hx => m.far _ (h.far i x hx), fun i x hx => m.qer _ (h.qer i x hx), fun hl i p hp => m.pdr _ (h.pdr hl i p hp)⟩

theorem still_far {b : BpfObjects} (h : Sized f q u b) {g : U32} (hg : g.toNat < f.toNat) : StillGone b (b.deleteFar g).1 := by
  obtain ⟨_, _, e⟩ := deleteFar_frame b g
  refine ⟨(deleteFar_gone h hg).2.2, ?_, fun k hk => ?_⟩
  · rw [e]; exact fun _ h => h
  · rw [e]; exact (entry_pdr rfl rfl rfl k).trans hk
theorem still_qer {b : BpfObjects} (h : Sized f q u b) {g : U32} (hg : g.toNat < q.toNat) : StillGone b (b.deleteQer g).1 := by
  obtain ⟨_, _, e⟩ := deleteQer_frame b g
  refine ⟨?_, (deleteQer_gone h hg).2.2, fun k hk => ?_⟩
  · rw [e]; exact fun _ h => h
  · rw [e]; exact (entry_pdr rfl rfl rfl k).trans hk
theorem still_pdr (ord : Orders) (p : SPdr) (s : HS) : StillGone s.dp (deletePdr ord p s).1.dp := by
  have h := (deletePdr_part ord p s).1
  refine ⟨?_, ?_, fun k hk => deletePdr_none ord p s k hk⟩
  · intro g hg; unfold farGone at *; rw [h.far, h.farIds]; exact hg
  · intro g hg; unfold qerGone at *; rw [h.qer, h.qerIds]; exact hg

theorem deleteSessionBody_gone {ord : Orders} {sess : Session} {hs0 hs : HS} {res : Res Unit} (hz : Sized f q u hs0.dp)
    (hr : InRange f q u sess) (hc : hs0.cache = GoMap.empty) (hb : deleteSessionBody ord sess hs0 = (hs, res)) (hres : res ≠ .panic) :
    SessGone sess hs.dp ∧ StillGone hs0.dp hs.dp ∧ Sized f q u hs.dp := by
  have hzf : Sized f q u hs.dp := by
    have := ((deleteSessionBody_pres (I := fun s => Sized f q u s.dp) (ord := ord) (sess := sess)
      (fun e _ => pres_of fun s h => h.part (deletePdr_part ord e.2 s).1)
      (fun e _ => pres_of fun s h => by rw [dropFar_dp]; exact deleteFar_sized h _)
      (fun e _ => pres_of fun s h => by rw [dropQer_dp]; exact deleteQer_sized h _))).apply (s := hs0) hz
    rwa [hb] at this
  -- the result is `ok`: errors are ignored
  have noerr : ∀ {α : Type} (g : α → Act HS Unit) (l : List α) (s : HS), (Act.each (fun e => Act.ignore (g e)) l s).2 ≠ .err := by
    intro α g l
    induction l with
    | nil => intro s h; cases h
    | cons x xs ih =>
      intro s
      show (Act.bind (Act.ignore (g x)) (fun _ => Act.each (fun e => Act.ignore (g e)) xs) s).2 ≠ .err
      unfold Act.bind
      have : (Act.ignore (g x) s).2 ≠ .err := by
        unfold Act.ignore
        rcases g x s with ⟨s', r⟩
        cases r <;> simp
      rcases hm : Act.ignore (g x) s with ⟨s1, r⟩
      rw [hm] at this
      cases r with
      | ok _ => exact ih s1
      | err => exact absurd rfl this
      | panic => simp
  have hok : deleteSessionBody ord sess hs0 = (hs, .ok ()) := by
    cases res with
    | ok _ => exact hb
    | panic => exact absurd rfl hres
    | err =>
      exfalso
      unfold deleteSessionBody at hb
      simp only [Act.bind_def, Act.bind] at hb
      have n1 := noerr dropFar (ord.fars.run sess.fars.entries) hs0
      rcases h1 : Act.each (fun e => Act.ignore (dropFar e)) (ord.fars.run sess.fars.entries) hs0 with ⟨s1, r1⟩
      rw [h1] at hb n1
      cases r1 with
      | err => exact n1 rfl
      | panic => simp at hb
      | ok _ =>
        simp only at hb
        have n2 := noerr dropQer (ord.qers.run sess.qers.entries) s1
        rcases h2 : Act.each (fun e => Act.ignore (dropQer e)) (ord.qers.run sess.qers.entries) s1 with ⟨s2, r2⟩
        rw [h2] at hb n2
        cases r2 with
        | err => exact n2 rfl
        | panic => simp at hb
        | ok _ =>
          simp only at hb
          have n3 := noerr (fun e : U32 × SPdr => deletePdr ord e.2) (ord.pdrs.run sess.pdrs.entries) s2
          rw [hb] at n3
          exact n3 rfl
  unfold deleteSessionBody at hok
  obtain ⟨_, s1, e1, hok⟩ := bind_ok hok
  obtain ⟨_, s2, e2, e3⟩ := bind_ok hok
  have a1 := each_ok_all (L := ord.fars.run sess.fars.entries) (f := fun e => Act.ignore (dropFar e))
      (I := fun s => Sized f q u s.dp ∧ StillGone hs0.dp s.dp) (Q := fun x s => farGone s.dp x.2.gid)
    (fun x hx s h => by
      rw [ignore_fst, dropFar_dp]
      exact ⟨deleteFar_sized h.1 _, h.2.trans (still_far h.1 (hr.far _ _ (mem_run_get _ _ x hx)))⟩)
    (fun y _ x hx s h hq => by
      rw [ignore_fst, dropFar_dp]
      exact (deleteFar_gone h.1 (hr.far _ _ (mem_run_get _ _ x hx))).2.2 _ hq)
    (fun x hx s h _ => by
      rw [ignore_fst, dropFar_dp]
      exact (deleteFar_gone h.1 (hr.far _ _ (mem_run_get _ _ x hx))).2.1) _ _ _ (fun _ h => h)
    (show _ ∧ _ from ⟨hz, StillGone.refl _⟩) e1
  have cache : ∀ {α : Type} (g : α → Act HS Unit) (_ : ∀ x s, (g x s).1.cache = s.cache) (l : List α) (s : HS),
      (Act.each g l s).1.cache = s.cache := by
    intro α g hg l s
    exact (Pres.each (I := fun t : HS => t.cache = s.cache) (l := l) fun x _ => pres_of fun t ht => (hg x t).trans ht).apply rfl
  have a2 := each_ok_all (L := ord.qers.run sess.qers.entries) (f := fun e => Act.ignore (dropQer e))
      (I := fun s => Sized f q u s.dp ∧ StillGone s1.dp s.dp) (Q := fun x s => qerGone s.dp x.2.gid)
    (fun x hx s h => by
      rw [ignore_fst, dropQer_dp]
      exact ⟨deleteQer_sized h.1 _, h.2.trans (still_qer h.1 (hr.qer _ _ (mem_run_get _ _ x hx)))⟩)
    (fun y _ x hx s h hq => by
      rw [ignore_fst, dropQer_dp]
      exact (deleteQer_gone h.1 (hr.qer _ _ (mem_run_get _ _ x hx))).2.2 _ hq)
    (fun x hx s h _ => by
      rw [ignore_fst, dropQer_dp]
      exact (deleteQer_gone h.1 (hr.qer _ _ (mem_run_get _ _ x hx))).2.1) _ _ _ (fun _ h => h)
    (show _ ∧ _ from ⟨a1.1.1, StillGone.refl _⟩) e2
  have a3 := (each_ok_all (L := ord.pdrs.run sess.pdrs.entries) (f := fun e => Act.ignore (deletePdr ord e.2))
      (I := fun s => StillGone s2.dp s.dp) (Q := fun _ _ => True)
    (fun x hx s h => by
      rw [ignore_fst]
      exact h.trans (still_pdr ord x.2 s))
    (fun _ _ _ _ _ _ _ => trivial) (fun _ _ _ _ _ => trivial) _ _ _ (fun _ h => h) (StillGone.refl _) e3).1
  have mem : ∀ {V : Type} (sh : Shuffle (U32 × V)) (m : GoMap U32 V) (i : U32) (x : V), m.get? i = some x → (i, x) ∈ sh.run m.entries :=
    fun sh m i x h => (sh.perm _).mem_iff.2 ((m.mem_entries_iff i x).2 h)
  refine ⟨⟨?_, ?_, ?_⟩, a1.1.2.trans (a2.1.2.trans a3), hzf⟩
  · intro i x hx
    exact a3.far _ (a2.1.2.far _ (a1.2.1 (i, x) (mem _ _ i x hx)))
  · intro i x hx
    exact a3.qer _ (a2.2.1 (i, x) (mem _ _ i x hx))
  · intro hlow i p hp
    have hL : LowOctet ((ord.pdrs.run sess.pdrs.entries).map Prod.snd) := by
      intro p hp p' hp' h1 h2 h3
      obtain ⟨⟨i, _⟩, hi, rfl⟩ := List.mem_map.1 hp
      obtain ⟨⟨j, _⟩, hj, rfl⟩ := List.mem_map.1 hp'
      exact hlow i _ (mem_run_get _ _ _ hi) j _ (mem_run_get _ _ _ hj) h1 h2 h3
    have c1 : s2.cache = GoMap.empty := by
      have x2 := cache (fun e => Act.ignore (dropQer e)) (fun x s => by rw [ignore_fst, dropQer_dp]) (ord.qers.run sess.qers.entries) s1
      have x1 := cache (fun e => Act.ignore (dropFar e)) (fun x s => by rw [ignore_fst, dropFar_dp]) (ord.fars.run sess.fars.entries) hs0
      rw [e2] at x2; rw [e1] at x1
      exact x2.trans (x1.trans hc)
    have := each_ok_all (L := ord.pdrs.run sess.pdrs.entries) (f := fun e => Act.ignore (deletePdr ord e.2))
      (I := CacheOk ((ord.pdrs.run sess.pdrs.entries).map Prod.snd))
      (Q := fun x s => s.dp.entry? x.2.key = none)
      (fun x hx s h => by rw [ignore_fst]; exact (deletePdr_gone hL ord (List.mem_map.2 ⟨x, hx, rfl⟩) h).1)
      (fun y _ x hx s h hq => by rw [ignore_fst]; exact (deletePdr_gone hL ord (List.mem_map.2 ⟨x, hx, rfl⟩) h).2.2 _ hq)
      (fun x hx s h _ => by rw [ignore_fst]; exact (deletePdr_gone hL ord (List.mem_map.2 ⟨x, hx, rfl⟩) h).2.1) _ _ _ (fun _ h => h)
      (by intro b hb; rw [c1] at hb; simp at hb) e3
    exact this.2.1 (i, p) (mem _ _ i p hp)

theorem dropSessions_gone (ord : Orders) : ∀ (l : List (U64 × Session)) (rm : Option ResourceManager) (dp : BpfObjects),
    Sized f q u dp → (∀ e ∈ l, InRange f q u e.2) → ∀ rm' dp', dropSessions ord l rm dp = (rm', dp', true) →
      StillGone dp dp' ∧ ∀ e ∈ l, SessGone e.2 dp'
  | [], rm, dp, _, _, rm', dp', hd => by cases hd; exact ⟨StillGone.refl _, by simp⟩
  | (seid, sess) :: l, rm, dp, hz, hr, rm', dp', hd => by
    unfold dropSessions at hd
    simp only at hd
    rcases hb : deleteSessionBody ord sess ⟨sess, GoMap.empty, rm, dp, [], []⟩ with ⟨hs, res⟩
    rw [hb] at hd
    have hres : res ≠ .panic := by rintro rfl; simp at hd
    obtain ⟨g1, g2, g3⟩ := deleteSessionBody_gone hz (hr (seid, sess) (by simp)) rfl hb hres
    have hd' : dropSessions ord l hs.rm hs.dp = (rm', dp', true) := by
      cases res with
      | ok _ => exact hd
      | err => exact hd
      | panic => exact absurd rfl hres
    obtain ⟨i1, i2⟩ := dropSessions_gone ord l hs.rm hs.dp g3 (fun e he => hr e (by simp [he])) rm' dp' hd'
    refine ⟨g2.trans i1, ?_⟩
    intro e he
    rcases List.mem_cons.1 he with rfl | he'
    · exact g1.mono i1
    · exact i2 e he'

end

/-- **C45.** When a peer with an association is lost, in any history with working address pools: the node goes on,
all sessions of the peer are gone, sessions of other peers are as before, and for every lost session the FAR and QER
slots are empty and free and (if its uplink TEIDs differ in the low octet when they differ) no PDR key of it is left. -/
theorem C45_peer_lost {cfg : NodeCfg} {rm : Option ResourceManager} {p f q u : U32} (hf : 0 < f.toNat) (hq : 0 < q.toNat)
    (hu : 0 < u.toNat) {h : List (Ev × Outcome)} {n : Node} (H : Hist (Node.init cfg rm (BpfObjects.load p f q u)) h n)
    {addr : Addr} {ord : Orders} (hassoc : (n.assocs.get? addr).isSome) {n' : Node} {o : Outcome}
    (hstep : n.step (.peerLost addr ord) = (n', o)) (hoc : o ≠ .crash) :
    o = .silent ∧ n'.assocs.get? addr = none ∧ (∀ s, n'.session? addr s = none) ∧
    (∀ b s, b ≠ addr → n'.session? b s = n.session? b s) ∧
    ∀ s sess, n.session? addr s = some sess →
      (∀ i x, sess.fars.get? i = some x → n'.dp.far.lookup x.gid = some {} ∧ n'.dp.farIds.free x.gid = true) ∧
      (∀ i x, sess.qers.get? i = some x → n'.dp.qer.lookup x.gid = some {} ∧ n'.dp.qerIds.free x.gid = true) ∧
      ((∀ i p, sess.pdrs.get? i = some p → ∀ j p', sess.pdrs.get? j = some p' → p.key = .ul p.teid → p'.key = .ul p'.teid →
          p.teid.truncate 8 = p'.teid.truncate 8 → p.teid = p'.teid) →
        ∀ i p, sess.pdrs.get? i = some p → n'.dp.entry? p.key = none) := by
  obtain ⟨hr, hz⟩ := ranges_hist hf hq hu H
  obtain ⟨a, ha⟩ := Option.isSome_iff_exists.1 hassoc
  simp only [Node.step, Node.deleteAssociation, ha] at hstep
  rcases hd : dropSessions ord (ord.sessions.run a.sessions.entries) n.rm n.dp with ⟨rm', dp', b⟩
  rw [hd] at hstep
  cases b with
  | false => cases hstep; exact absurd rfl hoc
  | true =>
    cases hstep
    have hmem : ∀ e ∈ ord.sessions.run a.sessions.entries, a.sessions.get? e.1 = some e.2 := fun e he =>
      (a.sessions.mem_entries_iff e.1 e.2).1 ((ord.sessions.perm _).mem_iff.1 he)
    obtain ⟨_, g⟩ := dropSessions_gone ord _ _ _ hz (fun e he => hr addr e.1 e.2 (by simp [Node.session?, ha, hmem e he])) _ _ hd
    refine ⟨rfl, by simp, by simp [Node.session?], ?_, ?_⟩
    · intro b s hb; simp [Node.session?, hb]
    · intro s sess hs
      have hs' : a.sessions.get? s = some sess := by simpa [Node.session?, ha] using hs
      have hg := g (s, sess) ((ord.sessions.perm _).mem_iff.2 ((a.sessions.mem_entries_iff _ _).2 hs'))
      exact ⟨hg.far, hg.qer, hg.pdr⟩

end Eupf
