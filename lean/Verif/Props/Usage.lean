import Verif.Props.DeletionCases
/-
C39: usage reports.
-/
namespace Eupf
open Act

/-- Specification: the usage report for URR `id` whose slot held the volumes `v`. -/
def usageReport (id : U32) (v : UrrInfo) : UsageReport := ⟨id, 1, v.ul + v.dl, v.ul, v.dl⟩

theorem GoodReach.hist {n0 n : Node} (H : GoodReach n0 n) : ∃ h, Hist n0 h n := by
  induction H with
  | init => exact ⟨[], .init⟩
  | step e _ _ hc ih => obtain ⟨h, ih⟩ := ih; exact ⟨_, .step e ih hc⟩
  | traffic _ t ih => obtain ⟨h, ih⟩ := ih; exact ⟨_, .traffic ih t⟩

section
variable {f q u : U32}

theorem dropUrrs_reports : ∀ (l : List (U32 × SUrr)) (s s' : HS), Sized f q u s.dp →
    (∀ e ∈ l, e.2.gid.toNat < u.toNat ∧ e.2.seqn = 0) → l.Pairwise (fun e e' => e.2.gid ≠ e'.2.gid) →
    Act.each dropUrr l s = (s', .ok ()) → s'.reports = s.reports ++ l.map (fun e => usageReport e.1 (s.dp.urr.val e.2.gid))
  | [], s, s', _, _, _, he => by cases he; simp
  | e :: l, s, s', hz, hr, hpw, he => by
    rw [List.pairwise_cons] at hpw
    obtain ⟨hg, hq⟩ := hr e (by simp)
    obtain ⟨g1, g2, g3, g4⟩ := deleteUrr_gone hz hg
    have hzz := deleteUrr_sized hz e.2.gid
    rcases hd : s.dp.deleteUrr e.2.gid with ⟨dp, o⟩
    rw [hd] at g1 g4 hzz
    simp only at g1 g4 hzz
    subst g1
    have h1 : dropUrr e s = ({ s with dp := dp, reports := s.reports ++ [mkReport e.1 e.2 (s.dp.urr.val e.2.gid)] }, .ok ()) := by
      unfold dropUrr; rw [hd]
    have he' : Act.bind (dropUrr e) (fun _ => Act.each dropUrr l) s = (s', .ok ()) := he
    unfold Act.bind at he'
    rw [h1] at he'
    have ih := dropUrrs_reports l _ s' (by exact hzz) (fun x hx => hr x (by simp [hx])) hpw.2 he'
    rw [ih]
    have hm : mkReport e.1 e.2 (s.dp.urr.val e.2.gid) = usageReport e.1 (s.dp.urr.val e.2.gid) := by
      simp [mkReport, usageReport, hq]
    simp only [List.map_cons, List.append_assoc, List.cons_append, List.nil_append, hm]
    congr 2
    apply List.map_congr_left
    intro x hx
    have : dp.urr.val x.2.gid = s.dp.urr.val x.2.gid := g4 _ (fun h => hpw.1 x hx h.symm)
    simp only [this]

/-- one Remove URR after the other -/
theorem removeUrrs_reports : ∀ (l : List (Option U32)) (s s' : HS), Sized f q u s.dp → l.Nodup →
    (∀ i, some i ∈ l → (s.sess.getUrr i).gid.toNat < u.toNat ∧ (s.sess.getUrr i).seqn = 0) →
    (∀ i j, some i ∈ l → some j ∈ l → i ≠ j → (s.sess.getUrr i).gid ≠ (s.sess.getUrr j).gid) →
    Act.each removeUrr l s = (s', .ok ()) →
    s'.reports = s.reports ++ l.map (fun o => usageReport (o.getD 0) (s.dp.urr.val (s.sess.getUrr (o.getD 0)).gid))
  | [], s, s', _, _, _, _, he => by cases he; simp
  | none :: l, s, s', _, _, _, _, he => by
    have he' : Act.bind (removeUrr none) (fun _ => Act.each removeUrr l) s = (s', .ok ()) := he
    unfold Act.bind removeUrr at he'
    simp at he'
  | some i :: l, s, s', hz, hnd, hr, hne, he => by
    rw [List.nodup_cons] at hnd
    obtain ⟨hg, hq⟩ := hr i (by simp)
    obtain ⟨g1, g2, g3, g4⟩ := deleteUrr_gone hz hg
    have hzz := deleteUrr_sized hz (s.sess.getUrr i).gid
    rcases hd : s.dp.deleteUrr (s.sess.getUrr i).gid with ⟨dp, o⟩
    rw [hd] at g1 g4 hzz
    simp only at g1 g4 hzz
    subst g1
    have h1 : removeUrr (some i) s = ({ s with dp := dp, sess := s.sess.removeUrr i, reports := s.reports ++ [mkReport i (s.sess.getUrr i) (s.dp.urr.val (s.sess.getUrr i).gid)] }, .ok ()) := by
      unfold removeUrr; simp only []; rw [hd]
    have he' : Act.bind (removeUrr (some i)) (fun _ => Act.each removeUrr l) s = (s', .ok ()) := he
    unfold Act.bind at he'
    rw [h1] at he'
    have hget : ∀ j, some j ∈ l → (s.sess.removeUrr i).getUrr j = s.sess.getUrr j := by
      intro j hj
      have : j ≠ i := by rintro rfl; exact hnd.1 hj
      simp [Session.getUrr, Session.removeUrr, this]
    have ih := removeUrrs_reports l _ s' (by exact hzz) hnd.2
      (fun j hj => by simp only []; rw [hget j hj]; exact hr j (by simp [hj]))
      (fun j k hj hk hjk => by simp only []; rw [hget j hj, hget k hk]; exact hne j k (by simp [hj]) (by simp [hk]) hjk) he'
    rw [ih]
    have hm : mkReport i (s.sess.getUrr i) (s.dp.urr.val (s.sess.getUrr i).gid) = usageReport i (s.dp.urr.val (s.sess.getUrr i).gid) := by
      simp [mkReport, usageReport, hq]
    simp only [List.map_cons, List.append_assoc, List.cons_append, List.nil_append, hm, Option.getD_some]
    congr 2
    apply List.map_congr_left
    intro x hx
    cases x with
    | none =>
      -- a Remove URR without id makes the request fail
      exfalso
      have aux : ∀ (l : List (Option U32)) (t t' : HS), none ∈ l → Act.each removeUrr l t ≠ (t', .ok ()) := by
        intro l
        induction l with
        | nil => intro t t' h; cases h
        | cons y ys ih =>
          intro t t' h he
          have he2 : Act.bind (removeUrr y) (fun _ => Act.each removeUrr ys) t = (t', .ok ()) := he
          unfold Act.bind at he2
          rcases hm : removeUrr y t with ⟨t1, r⟩
          rw [hm] at he2
          cases r with
          | ok _ =>
            rcases List.mem_cons.1 h with h0 | h0
            · subst h0; simp [removeUrr] at hm
            · exact ih t1 t' h0 he2
          | err => simp at he2
          | panic => simp at he2
      exact aux l _ _ hx he'
    | some j =>
      have hji : i ≠ j := by rintro rfl; exact hnd.1 hx
      have : dp.urr.val (s.sess.getUrr j).gid = s.dp.urr.val (s.sess.getUrr j).gid :=
        g4 _ (hne i j (by simp) (by simp [hx]) hji).symm
      simp only [Option.getD_some, hget j hx, this]
end

/-- **C39 (deletion).** In every history whose modifications only refer to known rules: the response to an accepted
deletion contains exactly one usage report per URR of the session, with sequence number 1 and the volumes
accumulated in the URR's slot. -/
theorem C39_deletion_partial {cfg : NodeCfg} {rm : Option ResourceManager} {p f q u : U32} (hf : 0 < f.toNat) (hq : 0 < q.toNat)
    (hu : 0 < u.toNat) {n : Node} (H : GoodReach (Node.init cfg rm (BpfObjects.load p f q u)) n)
    {addr : Addr} {r : DelReq} {ord : Orders} {sess : Session} (hs : n.session? addr r.seid = some sess)
    {n' : Node} {resp : Resp} (hstep : n.step (.delete addr r ord) = (n', .reply resp)) (hacc : resp.cause = 1) :
    resp.reports.Perm (sess.urrs.entries.map (fun e => usageReport e.1 (n.dp.urr.val e.2.gid))) := by
  obtain ⟨h, hh⟩ := H.hist
  obtain ⟨hr, hz⟩ := ranges_hist hf hq hu hh
  have hsl := slots_reach H
  have hstep' : n.delete addr r ord = (n', .reply resp) := hstep
  obtain ⟨a, sess', hs', ha, hsess, hb, he⟩ := delete_accepted (by rw [hstep']) hacc
  have : sess' = sess := by
    simp only [Node.session?, ha, Option.bind_some, hsess] at hs; exact Option.some.inj hs
  subst this
  rw [hstep'] at he
  have hresp : resp.reports = hs'.reports := by
    have := congrArg Prod.snd he
    simp only [Node.delResult] at this
    cases this; rfl
  rw [hresp]
  unfold deleteBody at hb
  obtain ⟨_, s1, e1, hb⟩ := bind_ok hb
  obtain ⟨_, s2, e2, hb⟩ := bind_ok hb
  obtain ⟨_, s3, e3, e4⟩ := bind_ok hb
  have b1 := (Pres.each (I := fun t : HS => t.dp.urr = n.dp.urr ∧ t.reports = [] ∧ Sized f q u t.dp) (l := ord.pdrs.run sess'.pdrs.entries)
    (f := fun e => deletePdr ord e.2) fun x _ => pres_of fun t ht => by
      obtain ⟨p1, p2, p3⟩ := deletePdr_part ord x.2 t
      exact ⟨p1.urr.trans ht.1, p3.trans ht.2.1, ht.2.2.part p1⟩).apply (s := n.hs sess') ⟨rfl, rfl, hz⟩
  rw [e1] at b1
  have b2 := (Pres.each (I := fun t : HS => t.dp.urr = n.dp.urr ∧ t.reports = [] ∧ Sized f q u t.dp) (l := ord.fars.run sess'.fars.entries)
    (f := dropFar) fun x _ => pres_of fun t ht => by
      have hzz := deleteFar_sized ht.2.2 x.2.gid
      rw [dropFar_dp]
      refine ⟨?_, ht.2.1, hzz⟩
      obtain ⟨_, _, e⟩ := deleteFar_frame t.dp x.2.gid
      rw [e]; exact ht.1).apply (s := s1) b1
  rw [e2] at b2
  have b3 := (Pres.each (I := fun t : HS => t.dp.urr = n.dp.urr ∧ t.reports = [] ∧ Sized f q u t.dp) (l := ord.qers.run sess'.qers.entries)
    (f := dropQer) fun x _ => pres_of fun t ht => by
      have hzz := deleteQer_sized ht.2.2 x.2.gid
      rw [dropQer_dp]
      refine ⟨?_, ht.2.1, hzz⟩
      obtain ⟨_, _, e⟩ := deleteQer_frame t.dp x.2.gid
      rw [e]; exact ht.1).apply (s := s2) b2
  rw [e3] at b3
  have hvx : n.view (some (addr, r.seid)) = some sess' := by simpa [Node.view] using hs
  have := dropUrrs_reports (f := f) (q := q) (u := u) _ s3 hs' b3.2.2
    (fun e he => (hr _ _ _ hs).urr _ _ (mem_run_get _ _ e he)) (by
      have hn := each_perm_nodup ord.urrs sess'.urrs
      rw [List.Nodup, List.pairwise_map] at hn
      refine hn.imp_of_mem ?_
      intro a b ha hb hab hg
      have hA := mem_run_get _ _ a ha
      have hB := mem_run_get _ _ b hb
      have := hsl.urr.excl (some (addr, r.seid), a.1) (some (addr, r.seid), b.1) a.2.gid a.2.info b.2.info
        (by simp [ownUrr, hvx, hA]) (by simp [ownUrr, hvx, hB, hg])
      exact hab (congrArg Prod.snd this)) e4
  rw [this, b3.2.1, b3.1, List.nil_append]
  exact (ord.urrs.perm _).map _

/-- The demo node after traffic: every usage counter says 100 octets up, 50 octets down. -/
def Demo.nTraffic : Node :=
  { Demo.nEnd with dp := { Demo.nEnd.dp with urr := ⟨Demo.nEnd.dp.urr.size, fun _ => ⟨100, 50⟩⟩ } }

theorem Demo.reach_traffic : GoodReach Demo.n0 Demo.nTraffic := by
  have hg : GoodReach Demo.n0 Demo.nEnd := by
    refine goodReach_run Demo.evs .init (by decide +kernel) ?_
    intro e he
    simp only [Demo.evs, List.mem_cons, List.not_mem_nil, or_false] at he
    rcases he with rfl | rfl | rfl | rfl | rfl | rfl <;> trivial
  unfold Demo.nTraffic
  generalize Demo.nEnd = n at hg
  exact GoodReach.traffic hg ⟨rfl, rfl, rfl, rfl, rfl, fun _ => rfl, rfl, rfl, rfl, rfl⟩

/-- Non-vacuity: see the C10 example for an accepted deletion with one report; here with traffic in between. -/
example : ∃ n, GoodReach Demo.n0 n ∧ (n.step (.delete 1 ⟨3, 7⟩ default)).2 =
      .reply { type := .deletion, seid := 101, seq := 7, cause := 1, reports := [⟨1, 1, 150, 100, 50⟩] } := by
  exact ⟨_, Demo.reach_traffic, by decide +kernel⟩

/-! ### removal of single URRs in a modification -/

/-- tables of URRs, URR records and collected reports are what they were -/
def UrrSame (d : ArrMap UrrInfo) (m : GoMap U32 SUrr) (R : List UsageReport) (s : HS) : Prop :=
  s.dp.urr = d ∧ s.sess.urrs = m ∧ s.reports = R

section
variable {d : ArrMap UrrInfo} {m : GoMap U32 SUrr} {R : List UsageReport}

theorem newFar_urr (b : BpfObjects) (x : FarInfo) : (b.newFar x).1.urr = b.urr := by
  unfold BpfObjects.newFar; simp only []; repeat' split
  all_goals rfl
theorem newQer_urr (b : BpfObjects) (x : QerInfo) : (b.newQer x).1.urr = b.urr := by
  unfold BpfObjects.newQer; simp only []; repeat' split
  all_goals rfl
theorem createFar_us (ie) : Pres (UrrSame d m R) (createFar ie) := by
  apply pres_of; intro s h; unfold createFar; split
  · rename_i x hx
    have := newFar_urr s.dp x
    rcases hn : s.dp.newFar x with ⟨dp, g⟩
    rw [hn] at this
    cases g <;> exact ⟨this.trans h.1, h.2⟩
  · exact h
  · exact h
theorem createQer_us (ie) : Pres (UrrSame d m R) (createQer ie) := by
  apply pres_of; intro s h; unfold createQer; split
  · exact h
  · have := newQer_urr s.dp (mergeQer {} ie)
    simp only []
    rcases hn : s.dp.newQer (mergeQer {} ie) with ⟨dp, g⟩
    rw [hn] at this
    cases g <;> exact ⟨this.trans h.1, h.2⟩
theorem updateFar_us (ie) : Pres (UrrSame d m R) (updateFar ie) := by
  apply pres_of; intro s h; unfold updateFar; split
  · exact h
  · split
    · simp only []; split
      · rename_i hu
        obtain ⟨a, _, rfl⟩ := Option.map_eq_some_iff.1 hu
        exact h
      · exact h
    · exact h
    · exact h
theorem updateQer_us (ie) : Pres (UrrSame d m R) (updateQer ie) := by
  apply pres_of; intro s h; unfold updateQer; split
  · exact h
  · simp only []; split
    · rename_i hu
      obtain ⟨a, _, rfl⟩ := Option.map_eq_some_iff.1 hu
      exact h
    · exact h
theorem removeFar_us (ie) : Pres (UrrSame d m R) (removeFar ie) := by
  apply pres_of; intro s h; unfold removeFar; simp only []
  obtain ⟨a, i, e⟩ := deleteFar_frame s.dp (s.sess.getFar (ie.getD 0)).gid
  rcases hn : s.dp.deleteFar (s.sess.getFar (ie.getD 0)).gid with ⟨dp, b⟩
  rw [hn] at e; simp only at e; subst e
  cases b <;> exact h
theorem removeQer_us (ie) : Pres (UrrSame d m R) (removeQer ie) := by
  apply pres_of; intro s h; unfold removeQer; split
  · exact h
  · rename_i id
    simp only []
    obtain ⟨a, i, e⟩ := deleteQer_frame s.dp (s.sess.getQer id).gid
    rcases hn : s.dp.deleteQer (s.sess.getQer id).gid with ⟨dp, b⟩
    rw [hn] at e; simp only at e; subst e
    cases b <;> exact h
theorem extractPdr_us (ue ie p) : Pres (UrrSame d m R) (extractPdr ue ie p) := by
  apply pres_of; intro s h; obtain ⟨c, rm, e⟩ := extractPdr_frame ue ie p s; rw [e]; exact h
theorem applyPdr_us (p) : Pres (UrrSame d m R) (applyPdr p) := by
  apply pres_of; intro s h
  obtain ⟨h1, h2⟩ := applyPdr_part p s
  obtain ⟨_, h3⟩ := applyPdr_frame p s
  exact ⟨h1.urr.trans h.1, by rw [h2]; exact h.2.1, by rw [h3]; exact h.2.2⟩
theorem deletePdr_us (ord p) : Pres (UrrSame d m R) (deletePdr ord p) := by
  apply pres_of; intro s h
  obtain ⟨h1, h2, h3⟩ := deletePdr_part ord p s
  exact ⟨h1.urr.trans h.1, by rw [h2]; exact h.2.1, by rw [h3]; exact h.2.2⟩
theorem createPdr_us (ue ie) : Pres (UrrSame d m R) (createPdr ue ie) := by
  unfold createPdr
  cases ie.pdrId with
  | none => exact Pres.fail
  | some id =>
    exact Pres.bind (extractPdr_us _ _ _) fun _ => Pres.bind (Pres.modify fun _ h => h) fun _ =>
      Pres.bind (applyPdr_us _) fun _ => Pres.modify fun _ h => h
theorem updatePdr_us (ue ie) : Pres (UrrSame d m R) (updatePdr ue ie) := by
  unfold updatePdr
  cases ie.pdrId with
  | none => exact Pres.fail
  | some id =>
    exact Pres.bind Pres.get fun _ => Pres.bind (extractPdr_us _ _ _) fun _ =>
      Pres.bind (Pres.modify fun _ h => h) fun _ => applyPdr_us _
theorem removePdr_us (ord id) : Pres (UrrSame d m R) (removePdr ord id) := by
  refine Pres.bind Pres.get fun s => ?_
  simp only []
  split
  · exact Pres.pure
  · exact Pres.bind (Pres.modify fun _ h => h) fun _ => deletePdr_us _ _
end

/-- **C39 (modification).** In the same histories, the response to an accepted modification that only removes URRs the
session has (and neither creates nor updates URRs, which would change the volumes) contains exactly one report per
removed URR, in order, with sequence number 1 and the volumes accumulated in its slot. -/
theorem C39_removal_partial {cfg : NodeCfg} {rm : Option ResourceManager} {p f q u : U32} (hf : 0 < f.toNat) (hq : 0 < q.toNat)
    (hu : 0 < u.toNat) {n : Node} (H : GoodReach (Node.init cfg rm (BpfObjects.load p f q u)) n)
    {addr : Addr} {r : ModReq} {ord : Orders} {sess : Session} (hs : n.session? addr r.seid = some sess)
    (hcr : r.createUrr = []) (hup : r.updateUrr = []) (hnd : r.removeUrr.Nodup)
    (hknown : ∀ i, some i ∈ r.removeUrr → (sess.urrs.get? i).isSome)
    {n' : Node} {resp : Resp} (hstep : n.step (.modify addr r ord) = (n', .reply resp)) (hacc : resp.cause = 1) :
    resp.reports = r.removeUrr.map (fun o => usageReport (o.getD 0)
      (n.dp.urr.val (((sess.urrs.get? (o.getD 0)).map (·.gid)).getD 0))) := by
  obtain ⟨h, hh⟩ := H.hist
  have hR := ranges_hist hf hq hu hh
  obtain ⟨hr, hz⟩ := hR
  have hsl := slots_reach H
  have hvx : n.view (some (addr, r.seid)) = some sess := by simpa [Node.view] using hs
  have hstep' : n.modify addr r ord = (n', .reply resp) := hstep
  cases modify_cases n addr r ord with
  | refused c x hcc hs' he => rw [hs] at hs'; cases hs'
  | ran a sess' hs' res ha hsess hbody hl hrem he =>
    have : sess' = sess := by
      have h := hs
      simp only [Node.session?, ha, Option.bind_some, hsess] at h; exact Option.some.inj h
    subst this
    rw [hstep'] at he
    have hsnd := congrArg Prod.snd he
    have hres : res = .ok () := by
      cases res with
      | ok _ => rfl
      | err => simp only [Node.modResult] at hsnd; cases hsnd; simp [causeRuleFailure] at hacc
      | panic => simp [Node.modResult] at hsnd
    subst hres
    have hrep : resp.reports = hs'.reports := by
      simp only [Node.modResult] at hsnd; cases hsnd; rfl
    rw [hrep]
    have hsr : ∀ x, (sess'.setRemote x).urrs = sess'.urrs ∧ InRange f q u (sess'.setRemote x) := by
      intro x
      have := (ranges_keep hf hq hu).remote sess' x (hr _ _ _ hs)
      refine ⟨?_, this⟩
      unfold Session.setRemote; split <;> rfl
    -- phases
    unfold modifyBody at hbody
    rw [hcr, hup] at hbody
    obtain ⟨_, x1, d1, hbody⟩ := bind_ok hbody
    obtain rfl := display_ok d1
    obtain ⟨_, x2, d2, hbody⟩ := bind_ok hbody
    obtain rfl := display_ok d2
    have ri0 : RI f q u (n.hs (sess'.setRemote r.cpFseid)) := ⟨(hsr _).2, hz⟩
    have us0 : UrrSame n.dp.urr sess'.urrs [] (n.hs (sess'.setRemote r.cpFseid)) := ⟨rfl, (hsr _).1, rfl⟩
    have step : ∀ {α : Type} {g : α → Act HS Unit} {l : List α} {s s' : HS} {D M R0}, (∀ x ∈ l, Pres (RI f q u) (g x)) →
        (∀ x ∈ l, Pres (UrrSame D M R0) (g x)) → Act.each g l s = (s', .ok ()) → RI f q u s → UrrSame D M R0 s →
        RI f q u s' ∧ UrrSame D M R0 s' := by
      intro α g l s s' D M R0 h1 h2 h3 h4 h5
      have a1 := (Pres.each h1).apply h4
      have a2 := (Pres.each h2).apply h5
      rw [h3] at a1 a2
      exact ⟨a1, a2⟩
    obtain ⟨_, s1, e1, hbody⟩ := bind_ok hbody
    obtain ⟨ri1, us1⟩ := step (fun _ _ => createFar_ri _) (fun _ _ => createFar_us _) e1 ri0 us0
    obtain ⟨_, s2, e2, hbody⟩ := bind_ok hbody
    obtain ⟨ri2, us2⟩ := step (fun _ _ => updateFar_ri hf _) (fun _ _ => updateFar_us _) e2 ri1 us1
    obtain ⟨_, s3, e3, hbody⟩ := bind_ok hbody
    obtain ⟨ri3, us3⟩ := step (fun _ _ => removeFar_ri _) (fun _ _ => removeFar_us _) e3 ri2 us2
    obtain ⟨_, s4, e4, hbody⟩ := bind_ok hbody
    obtain ⟨ri4, us4⟩ := step (fun _ _ => createQer_ri _) (fun _ _ => createQer_us _) e4 ri3 us3
    obtain ⟨_, s5, e5, hbody⟩ := bind_ok hbody
    obtain ⟨ri5, us5⟩ := step (fun _ _ => updateQer_ri hq _) (fun _ _ => updateQer_us _) e5 ri4 us4
    obtain ⟨_, s6, e6, hbody⟩ := bind_ok hbody
    obtain ⟨ri6, us6⟩ := step (fun _ _ => removeQer_ri _) (fun _ _ => removeQer_us _) e6 ri5 us5
    obtain ⟨_, s7, e7, hbody7⟩ := bind_ok hbody
    have e7' : s6 = s7 := congrArg Prod.fst e7
    rw [← e7'] at hbody7
    obtain ⟨_, s8, e8, hbody8⟩ := bind_ok hbody7
    have e8' : s6 = s8 := congrArg Prod.fst e8
    rw [← e8'] at hbody8
    obtain ⟨_, s9, e9, hbody9⟩ := bind_ok hbody8
    have hget : ∀ i, s6.sess.getUrr i = sess'.getUrr i := by intro i; unfold Session.getUrr; rw [us6.2.1]
    have hgs : ∀ i, some i ∈ r.removeUrr → ∃ x, sess'.urrs.get? i = some x ∧ sess'.getUrr i = x := by
      intro i hi
      obtain ⟨x, hx⟩ := Option.isSome_iff_exists.1 (hknown i hi)
      exact ⟨x, hx, by simp [Session.getUrr, hx]⟩
    have e9r := removeUrrs_reports (f := f) (q := q) (u := u) r.removeUrr s6 s9 ri6.2 hnd
      (fun i hi => by
        rw [hget]; obtain ⟨x, hx, hxx⟩ := hgs i hi
        rw [hxx]; exact (hr _ _ _ hs).urr i x hx)
      (fun i j hi hj hij hg => by
        rw [hget, hget] at hg
        obtain ⟨x, hx, hxx⟩ := hgs i hi
        obtain ⟨y, hy, hyy⟩ := hgs j hj
        rw [hxx, hyy] at hg
        have := hsl.urr.excl (some (addr, r.seid), i) (some (addr, r.seid), j) x.gid x.info y.info
          (by simp [ownUrr, hvx, hx]) (by simp [ownUrr, hvx, hy, hg])
        exact hij (congrArg Prod.snd this)) e9
    have us9 : UrrSame s9.dp.urr s9.sess.urrs s9.reports s9 := ⟨rfl, rfl, rfl⟩
    have hRR := ((Pres.each (l := r.createPdr) fun x _ => createPdr_us n.ueip x)).apply us9
    obtain ⟨_, s10, e10, hbody10⟩ := bind_ok hbody9
    rw [e10] at hRR
    have hRR2 := ((Pres.each (l := r.updatePdr) fun x _ => updatePdr_us n.ueip x)).apply hRR
    obtain ⟨_, s11, e11, hbody11⟩ := bind_ok hbody10
    rw [e11] at hRR2
    have hRR3 := ((Pres.each (l := r.removePdr) fun x _ => removePdr_us ord x)).apply hRR2
    rw [hbody11] at hRR3
    rw [hRR3.2.2, e9r, us6.2.2, us6.1, List.nil_append]
    apply List.map_congr_left
    intro o _
    rw [hget]
    congr 2
    unfold Session.getUrr
    cases sess'.urrs.get? (o.getD 0) <;> rfl

/-- Non-vacuity of the modification case: URR 1 of session (1,3) is removed after traffic. -/
example : ∃ n, GoodReach Demo.n0 n ∧ (n.step (.modify 1 { seid := 3, seq := 7, removeUrr := [some 1] } default)).2 =
      .reply { type := .modification, seid := 101, seq := 7, cause := 1, reports := [⟨1, 1, 150, 100, 50⟩] } := by
  exact ⟨_, Demo.reach_traffic, by decide +kernel⟩

/-- **C39, negation for updates.** An Update URR throws the accumulated volume away: 150 octets were counted, then the
URR is updated, then removed; the report says 0. -/
theorem C39_update_loses : ∃ n, GoodReach Demo.n0 n ∧
    (((n.session? 1 3).bind (fun s => s.urrs.get? 1)).bind (fun x => n.dp.urr.lookup x.gid)) = some ⟨100, 50⟩ ∧
    (n.run [.modify 1 { seid := 3, seq := 7, updateUrr := [some 1] } default,
            .modify 1 { seid := 3, seq := 8, removeUrr := [some 1] } default]).2 =
      [.reply { type := .modification, seid := 101, seq := 7, cause := 1 },
       .reply { type := .modification, seid := 101, seq := 8, cause := 1, reports := [⟨1, 1, 0, 0, 0⟩] }] := by
  exact ⟨_, Demo.reach_traffic, by decide +kernel, by decide +kernel⟩

end Eupf
