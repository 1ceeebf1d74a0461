import Verif.Props.Grouped
/-
C38, the record: which usage reporting rules a PDR refers to after an accepted request, at the level of child IEs.
(That the references never reach the forwarding plane is `C38_all_to_slot_zero`.)
-/
namespace Eupf
open Act

theorem pdrSdf_urr {ie : PdrIE} {p q : PdrInfo} (h : pdrSdf ie p = some q) : q.urr1 = p.urr1 ∧ q.urr2 = p.urr2 := by
  unfold pdrSdf at h
  split at h
  · cases h; exact ⟨rfl, rfl⟩
  · cases h; exact ⟨rfl, rfl⟩
  · obtain ⟨f, _, rfl⟩ := Option.map_eq_some_iff.1 h; exact ⟨rfl, rfl⟩

theorem extractPdr_urr {ue : Bool} {ie : PdrIE} {p p' : SPdr} {s s' : HS} (h : extractPdr ue ie p s = (s', .ok p')) :
    p'.info.urr1 = (pdrRefs s.sess ie p.info).urr1 ∧ p'.info.urr2 = (pdrRefs s.sess ie p.info).urr2 := by
  unfold extractPdr at h
  simp only [] at h
  split at h
  · cases h
  · split at h
    · cases h
    · rename_i info hinfo
      have hi := pdrSdf_urr hinfo
      suffices p'.info = info by rw [this]; exact hi
      split at h
      · cases h
      · unfold pdrFteid at h
        split at h
        · split at h
          · cases h; rfl
          · split at h
            · cases h
            · cases h; rfl
        · cases h; rfl
      · split at h
        · cases h
        · rename_i w _
          unfold pdrUeIp at h
          simp only at h
          split at h
          · cases h; rfl
          · cases h; rfl
          · cases h
        · cases h; rfl

theorem creates_urrs {ue : Bool} : ∀ (l : List PdrIE) {s s' : HS}, Act.each (createPdr ue) l s = (s', .ok ()) → s'.sess.urrs = s.sess.urrs
  | [], s, s', h => by cases h; rfl
  | x :: l, s, s', h => by
    obtain ⟨s1, h1, h2⟩ := each_cons_ok h
    obtain ⟨_, _, _, _, _, hs, _⟩ := createPdr_ok h1
    rw [creates_urrs l h2, hs]; rfl

/-- the URR IDs of a Create PDR, in order, when the first two are these -/
theorem urrIds_two {pre mid post : List PdrChild} {i j : U32} (h1 : ∀ x ∈ pre, x.urrId? = none) (h2 : ∀ x ∈ mid, x.urrId? = none) :
    (PdrIE.ofChildren (pre ++ .urrId (some i) :: (mid ++ .urrId (some j) :: post))).urrIds =
      some (i :: j :: post.filterMap PdrChild.urrId?) := by
  have n : ∀ l : List PdrChild, (∀ x ∈ l, x.urrId? = none) → l.filterMap PdrChild.urrId? = [] := by
    intro l h
    rw [List.filterMap_eq_nil_iff]; exact h
  show some (urrIdsOfChildren _) = _
  simp only [urrIdsOfChildren, List.filterMap_append, List.filterMap_cons, PdrChild.urrId?, n _ h1, n _ h2, List.nil_append]

/-- **C38, the record.** After an accepted establishment (PDR ids are not repeated), the PDR whose Create PDR gives the URR IDs `i` and `j`
before any other refers to the slots of the URRs `i` and `j` of this session, as far as the session has them. -/
theorem C38_recorded {n : Node} {addr : Addr} {r : RawEst} {l1 l2 : List (List PdrChild)} {pre mid post : List PdrChild} {i j : U32}
    (h1 : ∀ x ∈ pre, x.urrId? = none) (h2 : ∀ x ∈ mid, x.urrId? = none) {n' : Node} {resp : Resp}
    (hstep : n.step (.establish addr (r.withPdr l1 (pre ++ .urrId (some i) :: (mid ++ .urrId (some j) :: post)) l2).req) = (n', .reply resp))
    (hacc : resp.cause = 1)
    (hnd : ((r.withPdr l1 (pre ++ .urrId (some i) :: (mid ++ .urrId (some j) :: post)) l2).req.createPdr.map (·.pdrId)).Nodup) :
    ∃ id seid sess p, (PdrIE.ofChildren (pre ++ .urrId (some i) :: (mid ++ .urrId (some j) :: post))).pdrId = some id ∧
      resp.fseid = some seid ∧ n'.session? addr seid = some sess ∧ sess.pdrs.get? (id.zeroExtend 32) = some p ∧
      (∀ u, sess.urrs.get? i = some u → p.info.urr1 = u.gid) ∧ (∀ u, sess.urrs.get? j = some u → p.info.urr2 = u.gid) := by
  have hu := urrIds_two (post := post) (i := i) (j := j) h1 h2
  generalize pre ++ PdrChild.urrId (some i) :: (mid ++ .urrId (some j) :: post) = cs at *
  have hr : (r.withPdr l1 cs l2).req.createPdr = l1.map PdrIE.ofChildren ++ PdrIE.ofChildren cs :: l2.map PdrIE.ofChildren := by
    simp [RawEst.withPdr, RawEst.req]
  generalize (r.withPdr l1 cs l2).req = r at *
  generalize PdrIE.ofChildren cs = ie at *
  generalize l1.map PdrIE.ofChildren = m1 at *
  generalize l2.map PdrIE.ofChildren = m2 at *
  obtain ⟨seid, remote, hs', h1, h2, hb, h3, h4, -, -⟩ := establish_accepted hstep hacc
  unfold establishBody at hb
  obtain ⟨_, s0, e0, hb⟩ := bind_ok hb
  obtain rfl := display_ok e0
  obtain ⟨_, s1, e1, hb⟩ := bind_ok hb
  obtain ⟨_, s2, e2, hb⟩ := bind_ok hb
  obtain ⟨_, s3, e3, e4⟩ := bind_ok hb
  rw [hr] at e4 hnd
  obtain ⟨t1, f1, f2⟩ := each_append_ok m1 e4
  obtain ⟨t2, f3, f4⟩ := each_cons_ok f2
  obtain ⟨id, p, u, hid, hx, hsess, -, -, -, hent⟩ := createPdr_ok f3
  simp only [List.map_append, List.map_cons] at hnd
  have hnd2 := (List.nodup_append.1 hnd).2.1
  rw [List.nodup_cons] at hnd2
  obtain ⟨i1, i2, i3, i4⟩ := puts_later (createPdr_puts _) m2 t2 hs' f4 hnd2.2
  have hrec : hs'.sess.pdrs.get? (id.zeroExtend 32) = some p := by
    rw [i2 id ?_, hsess]
    · exact (GoMap.get?_set ..).trans (if_pos rfl)
    · intro y hy he
      exact hnd2.1 (List.mem_map.2 ⟨y, hy, he.trans hid.symm⟩)
  have hurr : hs'.sess.urrs = t1.sess.urrs := by rw [creates_urrs m2 f4, hsess]; rfl
  obtain ⟨g1, g2⟩ := extractPdr_urr hx
  refine ⟨id, seid, hs'.sess, p, hid, h1, h3, hrec, ?_, ?_⟩
  · intro v hv
    rw [hurr] at hv
    simp [g1, pdrRefs, hu, Session.getUrr, hv]
  · intro v hv
    rw [hurr] at hv
    simp [g2, pdrRefs, hu, Session.getUrr, hv]

/-- is a URR ID IE -/
def PdrChild.isUrr : PdrChild → Bool
  | .urrId _ => true
  | _ => false

/-- **C38, negation for every request: two at most.** After two decodable URR IDs of a Create PDR, further URR IDs make no difference. -/
theorem C38_third_ignored (n : Node) (a : Addr) (r : RawEst) (l1 l2 : List (List PdrChild)) (pre mid post : List PdrChild) (i j : U32) :
    n.step (.establish a (r.withPdr l1 (pre ++ .urrId (some i) :: (mid ++ .urrId (some j) :: post)) l2).req) =
    n.step (.establish a (r.withPdr l1 (pre ++ .urrId (some i) :: (mid ++ .urrId (some j) :: post.filter (fun x => !x.isUrr))) l2).req) := by
  have hp : ∃ k l m m', (PdrIE.ofChildren (pre ++ .urrId (some i) :: (mid ++ .urrId (some j) :: post))).urrIds = some (k :: l :: m) ∧
      (PdrIE.ofChildren (pre ++ .urrId (some i) :: (mid ++ .urrId (some j) :: post.filter (fun x => !x.isUrr)))).urrIds = some (k :: l :: m') := by
    have key : ∀ post, (PdrIE.ofChildren (pre ++ .urrId (some i) :: (mid ++ .urrId (some j) :: post))).urrIds =
        some ((pre.filterMap PdrChild.urrId? ++ i :: (mid.filterMap PdrChild.urrId? ++ [j])) ++ post.filterMap PdrChild.urrId?) := by
      intro post
      show some (urrIdsOfChildren _) = _
      simp [urrIdsOfChildren, PdrChild.urrId?]
    rw [key, key]
    cases pre.filterMap PdrChild.urrId? with
    | nil =>
      cases mid.filterMap PdrChild.urrId? with
      | nil => exact ⟨_, _, _, _, rfl, rfl⟩
      | cons y ys => exact ⟨_, _, _, _, rfl, rfl⟩
    | cons y ys =>
      cases ys with
      | nil => exact ⟨_, _, _, _, rfl, rfl⟩
      | cons z zs => exact ⟨_, _, _, _, rfl, rfl⟩
  have hrest : { PdrIE.ofChildren (pre ++ .urrId (some i) :: (mid ++ .urrId (some j) :: post.filter (fun x => !x.isUrr))) with
      urrIds := (PdrIE.ofChildren (pre ++ .urrId (some i) :: (mid ++ .urrId (some j) :: post))).urrIds } =
      PdrIE.ofChildren (pre ++ .urrId (some i) :: (mid ++ .urrId (some j) :: post)) := by
    have hs : ∀ {β : Type} (f : PdrChild → Option β), (∀ x, f (.urrId x) = none) →
        (pre ++ .urrId (some i) :: (mid ++ .urrId (some j) :: post.filter (fun x => !x.isUrr))).findSome? f =
        (pre ++ .urrId (some i) :: (mid ++ .urrId (some j) :: post)).findSome? f := by
      intro β f hf
      rw [List.findSome?_append, List.findSome?_append, List.findSome?_cons, List.findSome?_cons, List.findSome?_append, List.findSome?_append,
        List.findSome?_cons, List.findSome?_cons, hf, hf]
      simp only
      rw [findSome_filter]
      intro x _ hx
      cases x with
      | urrId k => exact hf k
      | _ => cases hx
    unfold PdrIE.ofChildren
    simp only
    rw [hs _ (fun _ => rfl), hs _ (fun _ => rfl), hs _ (fun _ => rfl), hs _ (fun _ => rfl), hs _ (fun _ => rfl)]
  have hreq : ∀ cs, (r.withPdr l1 cs l2).req =
      { r.req with createPdr := l1.map PdrIE.ofChildren ++ PdrIE.ofChildren cs :: l2.map PdrIE.ofChildren } := by
    intro cs; simp [RawEst.withPdr, RawEst.req]
  rw [hreq, hreq]
  generalize PdrIE.ofChildren (pre ++ .urrId (some i) :: (mid ++ .urrId (some j) :: post.filter (fun x => !x.isUrr))) = d at *
  generalize PdrIE.ofChildren (pre ++ .urrId (some i) :: (mid ++ .urrId (some j) :: post)) = c at *
  obtain ⟨k, l, m, m', hc, hd⟩ := hp
  have hcreate : ∀ ue, createPdr ue c = createPdr ue d := by
    intro ue
    rw [← hrest]
    have hrefs : ∀ sess p, pdrRefs sess { d with urrIds := c.urrIds } p = pdrRefs sess d p := by
      intro sess p
      simp [pdrRefs, hc, hd]
    have hext : ∀ p, extractPdr ue { d with urrIds := c.urrIds } p = extractPdr ue d p := by
      intro p
      funext s
      unfold extractPdr pdrSdf
      simp only [hrefs]
    have hid : PdrIE.pdrId { d with urrIds := c.urrIds } = d.pdrId := rfl
    generalize PdrIE.mk d.pdrId d.ohr d.farId d.qerId c.urrIds d.pdi d.sdf = c' at hext hid ⊢
    unfold createPdr
    rw [hid]
    cases d.pdrId with
    | none => rfl
    | some id => simp only [hext]
  have hdisp : displayPdr c = displayPdr d := by
    rw [← hrest]; rfl
  have each_congr : ∀ (f : PdrIE → Act HS Unit) (m1 m2 : List PdrIE), f c = f d → Act.each f (m1 ++ c :: m2) = Act.each f (m1 ++ d :: m2) := by
    intro f m1 m2 hf
    induction m1 with
    | nil => show (f c >>= fun _ => Act.each f m2) = (f d >>= fun _ => Act.each f m2); rw [hf]
    | cons x xs ih =>
      show (f x >>= fun _ => Act.each f (xs ++ c :: m2)) = (f x >>= fun _ => Act.each f (xs ++ d :: m2))
      rw [ih]
  have hbody : ∀ ue, establishBody ue { r.req with createPdr := l1.map PdrIE.ofChildren ++ c :: l2.map PdrIE.ofChildren } =
      establishBody ue { r.req with createPdr := l1.map PdrIE.ofChildren ++ d :: l2.map PdrIE.ofChildren } := by
    intro ue
    unfold establishBody
    simp only
    rw [each_congr _ _ _ hdisp, each_congr _ _ _ (hcreate ue)]
  simp only [Node.step, Node.establish, hbody]

/-- a session with three URRs -/
def Demo.rawUrr : RawEst :=
  { seq := 7, nodeId := some (some ()), cpFseid := some (some 100), createFar := [Demo.rawFarUl], createUrr := [some 5, some 7, some 9] }
/-- a Create PDR that names the URRs 7, 5 and 9 -/
def Demo.rawUrrPdr : List PdrChild :=
  [.pdrId (some 1), .farId (some 1)] ++ .urrId (some 7) :: ([.precedence 3] ++ .urrId (some 5) :: [.urrId (some 9),
    .pdi [.source (some 0), .fteid (some ⟨0x100, false, none⟩)]])
/-- the node after the request -/
def Demo.nUrr : Node := (Demo.nSvc0.step (.establish 1 (Demo.rawUrr.withPdr [] Demo.rawUrrPdr []).req)).1

/-- Non-vacuity of C38_recorded: an accepted establishment whose PDR names the URRs 7, 5 and 9; the record refers to the slots of 7 and 5. -/
example : (Demo.nSvc0.step (.establish 1 (Demo.rawUrr.withPdr [] Demo.rawUrrPdr []).req)).2 = .reply Demo.svcResp ∧ Demo.svcResp.cause = 1 ∧
    (((Demo.nUrr.session? 1 2).bind (·.pdrs.get? 1)).map fun p => (p.info.urr1, p.info.urr2)) = some (1, 0) ∧
    ((Demo.nUrr.session? 1 2).map fun s => (s.urrs.entries.map fun e => (e.1, e.2.gid))) = some [(9, 2), (7, 1), (5, 0)] := by
  refine ⟨by decide +kernel, by decide +kernel, by decide +kernel, by decide +kernel⟩

end Eupf
