import Verif.KeyGuard
import Verif.Props.Created
import Verif.Props.Slots
import Verif.Props.Requests
import Verif.Props.Tunnel
import Verif.Spec.Asked
/-
C64 (isolation of sessions in the forwarding plane), C65, C66 (end to end: from the request to the packets on the wire).
-/
namespace Eupf
open Act

/-! ### C64 -/

/-- **C64, one event.** Session `s` of `a` has PDRs with key `K` (not TEID 0) and no other session does. An event that is not about the
session, gives `K` in none of its PDRs and finds `K` not free in the pools - whatever it is, from whatever peer, accepted, rejected or
fatal - leaves the forwarding plane's entry for `K` and the session as they are. -/
theorem C64_event {cfg : NodeCfg} {rm : Option ResourceManager} {dp : BpfObjects} {h : List (Ev × Outcome)} {n : Node}
    (H : Hist (Node.init cfg rm dp) h n) (hb : attempts h < 2 ^ 64 - 2) {a : Addr} {s : U64} {x : Session} (hx : n.session? a s = some x)
    {K : PdrKey} (hK : K ≠ .ul 0) (hoth : ¬ n.usedElsewhere a s K) (e : Ev) (hab : ¬ e.about a s) (hnm : ¬ e.names K) (hfree : ¬ K.freeIn n.rm) :
    (n.step e).1.dp.entry? K = n.dp.entry? K ∧ (n.step e).1.session? a s = some x := by
  obtain ⟨h1, h2, -⟩ := guard_step hK e ((linv_hist H hb).fresh hb (by rw [hx]; simp)) hab hnm hfree hoth
  exact ⟨h1, by rw [h2, hx]⟩

/-- **C64, histories.** Over any number of such events and packets the entry for `K` and the session stay, and so do the FAR and QER
slots of the session (of a QER slot: gates, QFI and bit rates). -/
theorem C64_history_partial {cfg : NodeCfg} {rm : Option ResourceManager} {p f q u : U32} {h1 : List (Ev × Outcome)} {n1 : Node}
    (H1 : HistP (fun n e => e.refsKnown n) (Node.init cfg rm (BpfObjects.load p f q u)) h1 n1) {a : Addr} {s : U64} {x : Session}
    (hx : n1.session? a s = some x) {K : PdrKey} (hK : K ≠ .ul 0) (hoth : ¬ n1.usedElsewhere a s K)
    {h2 : List (Ev × Outcome)} {n2 : Node} (H2 : HistP (Elsewhere a s K) n1 h2 n2) (hb : attempts (h2 ++ h1) < 2 ^ 64 - 2) :
    n2.dp.entry? K = n1.dp.entry? K ∧ n2.session? a s = some x ∧
    (∀ i fi, x.fars.get? i = some fi → n1.dp.far.lookup fi.gid = some fi.info ∧ n2.dp.far.lookup fi.gid = some fi.info) ∧
    (∀ i qi, x.qers.get? i = some qi → ∃ k, n2.dp.qer.lookup qi.gid = some k ∧ k.gateUL = qi.info.gateUL ∧ k.gateDL = qi.info.gateDL ∧
      k.qfi = qi.info.qfi ∧ k.mbrUL = qi.info.mbrUL ∧ k.mbrDL = qi.info.mbrDL) := by
  obtain ⟨g1, g2, -⟩ := guard_hist H1.hist hx hK hoth (P := Elsewhere a s K) (fun n e h => ⟨h.other, h.unnamed, h.notFree⟩) H2 hb
  have G := (H1.append (H2.mono fun n e (h : Elsewhere a s K n e) => h.known)).good fun _ _ h => h
  refine ⟨g1, g2, ?_, ?_⟩
  · intro i fi hi
    exact ⟨(C09_agrees_partial (H1.good fun _ _ h => h) hx i).1 fi hi, (C09_agrees_partial G g2 i).1 fi hi⟩
  · intro i qi hi
    exact (C09_agrees_partial G g2 i).2 qi hi

/-! ### the effect of an establishment -/

/-- keys that cannot be handed out are not handed out -/
structure KN (K : PdrKey) (s : HS) : Prop where
  free : ¬ K.freeIn s.rm
  cache : ∀ c v, s.cache.get? c = some v → .ul v ≠ K

theorem kn_extract {K : PdrKey} {ue : Bool} {ie : PdrIE} {p : SPdr} {s : HS} (h : KN K s) : KN K (extractPdr ue ie p s).1 := by
  unfold extractPdr
  simp only []
  split
  · exact h
  · split
    · exact h
    · split
      · exact h
      · rename_i f _
        unfold pdrFteid
        split
        · split
          · exact h
          · rename_i info _ _ _ _
            have hal := allocTeid_free (seid := s.sess.remoteSEID) (pdr := p.pdrId) h.free
            simp only []
            rcases hx : allocTeid s.sess.remoteSEID p.pdrId s.rm with ⟨rm, r⟩
            rw [hx] at hal
            cases r with
            | none => exact ⟨hal.1, h.cache⟩
            | some v =>
              simp only []
              cases f.chooseId with
              | none => exact ⟨hal.1, h.cache⟩
              | some c =>
                refine ⟨hal.1, ?_⟩
                intro c' v' hc
                simp only [GoMap.get?_set] at hc
                split at hc
                · cases hc; exact hal.2 v rfl
                · exact h.cache _ _ hc
        · exact h
      · split
        · exact h
        · rename_i u _
          unfold pdrUeIp
          have key : ∀ r : Option ResourceManager × Option Ip4 × Bool, ¬ K.freeIn r.1 → ∀ q : SPdr,
              let m : HS × Res SPdr := match r.2.1, u.ipv6 with
                | some ip, _ => ({ s with rm := r.1 }, .ok { q with ipv4 := some ip, allocated := r.2.2 })
                | none, some ip6 => ({ s with rm := r.1 }, .ok { q with ipv6 := some ip6, allocated := r.2.2 })
                | none, none => ({ s with rm := r.1 }, .err)
              KN K m.1 := by
            intro r hr q
            simp only []
            split <;> exact ⟨hr, h.cache⟩
          apply key
          split
          · have := (allocIp_free (seid := s.sess.remoteSEID) h.free).1
            split <;> (rename_i e; rw [e] at this; exact this)
          · exact h.free
        · exact h

theorem kn_create {K : PdrKey} {ue : Bool} {ie : PdrIE} {s s' : HS} (h : KN K s) (he : createPdr ue ie s = (s', .ok ())) : KN K s' := by
  obtain ⟨id, p, s1, -, hx, -, -, h1, h2, -⟩ := createPdr_ok he
  have := kn_extract (ue := ue) (ie := ie) (p := { pdrId := id.zeroExtend 32 }) h
  rw [hx] at this
  exact ⟨by rw [h1]; exact this.free, by rw [h2]; exact this.cache⟩

theorem kn_creates {K : PdrKey} {ue : Bool} : ∀ (l : List PdrIE) {s s' : HS}, KN K s → Act.each (createPdr ue) l s = (s', .ok ()) → KN K s'
  | [], s, s', h, e => by cases e; exact h
  | x :: l, s, s', h, e => by
    obtain ⟨s1, h1, h2⟩ := each_cons_ok e
    exact kn_creates l (kn_create h h1) h2

/-- A Create PDR of an accepted establishment that is to match on `K`, where `K` is not free in the pools and no later Create PDR
gives `K`: the session has the record, and it is in effect; if no other Create PDR gives `K`, no other record of the session has it. -/
theorem establish_in_effect_alone {n : Node} {addr : Addr} {r : EstReq} {n' : Node} {resp : Resp}
    (hstep : n.step (.establish addr r) = (n', .reply resp)) (hacc : resp.cause = 1)
    (hnd : (r.createPdr.map (·.pdrId)).Nodup) {l1 l2 : List PdrIE} {ie : PdrIE} (hr : r.createPdr = l1 ++ ie :: l2)
    {K : PdrKey} (hK : K ≠ .ul 0) (hon : ie.matchesOn K) (hl2 : ∀ x ∈ l2, ¬ x.names K) (hfree : ¬ K.freeIn n.rm) :
    ∃ id seid sess p, ie.pdrId = some id ∧ resp.fseid = some seid ∧ n'.session? addr seid = some sess ∧
      sess.pdrs.get? (id.zeroExtend 32) = some p ∧ PdrGiven ie sess p ∧ p.key = K ∧ InEffect n'.dp p ∧
      ((∀ x ∈ l1, ¬ x.names K) → ∀ k q, k ≠ id.zeroExtend 32 → sess.pdrs.get? k = some q → q.key ≠ K) := by
  obtain ⟨seid, remote, hs', h1, h2, hb, h3, h4, -, -⟩ := establish_accepted hstep hacc
  unfold establishBody at hb
  obtain ⟨_, s0, e0, hb⟩ := bind_ok hb
  obtain rfl := display_ok e0
  obtain ⟨_, s1, e1, hb⟩ := bind_ok hb
  obtain ⟨_, s2, e2, hb⟩ := bind_ok hb
  obtain ⟨_, s3, e3, e4⟩ := bind_ok hb
  have k0 : KN K (n.hs (Session.new seid remote)) := ⟨hfree, fun c v hv => by simp [Node.hs] at hv⟩
  have fr : ∀ {α : Type} {f : α → Act HS Unit} {l : List α} {s s' : HS}, (∀ x s, RuleFrame s (f x s).1) → Act.each f l s = (s', .ok ()) → KN K s → KN K s' := by
    intro α f l s s' hf he hk
    refine pres_each_ok (I := KN K) (fun x _ => pres_of fun t ht => ?_) he hk
    have := hf x t
    exact ⟨by rw [this.rm]; exact ht.free, by rw [this.cache]; exact ht.cache⟩
  have k3 := fr createUrr_rf e3 (fr createQer_rf e2 (fr createFar_rf e1 k0))
  rw [hr] at e4 hnd
  obtain ⟨t1, f1, f2⟩ := each_append_ok l1 e4
  obtain ⟨t2, f3, f4⟩ := each_cons_ok f2
  have k4 := kn_create (kn_creates l1 k3 f1) f3
  obtain ⟨id, p, v, hid, hx, hsess, -, -, -, hent⟩ := createPdr_ok f3
  simp only [List.map_append, List.map_cons] at hnd
  have hnd2 := (List.nodup_append.1 hnd).2.1
  rw [List.nodup_cons] at hnd2
  obtain ⟨i1, i2, i3, i4⟩ := puts_later (createPdr_puts _) l2 t2 hs' f4 hnd2.2
  have hrec : hs'.sess.pdrs.get? (id.zeroExtend 32) = some p := by
    rw [i2 id ?_, hsess]
    · exact (GoMap.get?_set ..).trans (if_pos rfl)
    · intro y hy he
      exact hnd2.1 (List.mem_map.2 ⟨y, hy, he.trans hid.symm⟩)
  have hg : PdrGiven ie hs'.sess p := given_of hx _ (by rw [i3, hsess]; rfl) (by rw [i4, hsess]; rfl)
  have hk : p.key = K := by
    cases K with
    | ul t => obtain ⟨pdi, f, a, b, c, d⟩ := hon; rw [hg.teid pdi f a b c, d]
    | dl4 ip => obtain ⟨pdi, w, a, b, c, d, e⟩ := hon; exact hg.ue4 pdi w ip a b c d e
    | dl6 ip => obtain ⟨pdi, w, a, b, c, d, e, e'⟩ := hon; exact hg.ue6 pdi w ip a b c d e e'
  refine ⟨id, seid, hs'.sess, p, hid, h1, h3, hrec, hg, hk, ?_⟩
  have kf : KF K (fun k => (∀ x ∈ l1, ¬ x.names K) ∧ k ≠ id.zeroExtend 32) (t2.dp.entry? K) t2 := by
    refine ⟨⟨rfl, ?_⟩, k4.free, k4.cache⟩
    rintro k q ⟨hl1, hne⟩ hq
    rw [hsess] at hq
    have hq' : (GoMap.set t1.sess.pdrs (id.zeroExtend 32) p).get? k = some q := hq
    rw [GoMap.get?_set, if_neg hne] at hq'
    have z3 : s3.sess.pdrs = GoMap.empty := by
      have fr2 : ∀ {α : Type} {f : α → Act HS Unit} {l : List α} {s s' : HS}, (∀ x s, RuleFrame s (f x s).1) → Act.each f l s = (s', .ok ()) →
          s.sess.pdrs = GoMap.empty → s'.sess.pdrs = GoMap.empty := by
        intro α f l s s' hf he hk
        refine pres_each_ok (I := fun s => s.sess.pdrs = GoMap.empty) (fun x _ => pres_of fun t ht => ?_) he hk
        show (f x t).1.sess.pdrs = _
        rw [(hf x t).pdrs]; exact ht
      exact fr2 createUrr_rf e3 (fr2 createQer_rf e2 (fr2 createFar_rf e1 rfl))
    have kf1 : KF K (fun _ => True) (s3.dp.entry? K) s3 := ⟨⟨rfl, fun k q _ hq => by rw [z3] at hq; simp at hq⟩, k3.free, k3.cache⟩
    exact (pres_each_ok (fun x hx => kf_create (ue := n.ueip) hK (hl1 x hx)) f1 kf1).recs k q trivial hq'
  have kf' := pres_each_ok (fun x hx => kf_create (ue := n.ueip) hK (hl2 x hx)) f4 kf
  refine ⟨?_, fun hl1 k q hk hq => kf'.recs k q ⟨hl1, hk⟩ hq⟩
  rw [h4]
  apply inEffect_of (cur := t1.dp.entry? p.key)
  rw [hk, kf'.ent, hent, hk, if_pos rfl]

theorem establish_in_effect {n : Node} {addr : Addr} {r : EstReq} {n' : Node} {resp : Resp}
    (hstep : n.step (.establish addr r) = (n', .reply resp)) (hacc : resp.cause = 1)
    (hnd : (r.createPdr.map (·.pdrId)).Nodup) {l1 l2 : List PdrIE} {ie : PdrIE} (hr : r.createPdr = l1 ++ ie :: l2)
    {K : PdrKey} (hK : K ≠ .ul 0) (hon : ie.matchesOn K) (hl2 : ∀ x ∈ l2, ¬ x.names K) (hfree : ¬ K.freeIn n.rm) :
    ∃ id seid sess p, ie.pdrId = some id ∧ resp.fseid = some seid ∧ n'.session? addr seid = some sess ∧
      sess.pdrs.get? (id.zeroExtend 32) = some p ∧ PdrGiven ie sess p ∧ p.key = K ∧ InEffect n'.dp p := by
  obtain ⟨id, seid, sess, p, h1, h2, h3, h4, h5, h6, h7, -⟩ := establish_in_effect_alone hstep hacc hnd hr hK hon hl2 hfree
  exact ⟨id, seid, sess, p, h1, h2, h3, h4, h5, h6, h7⟩

/-- Other sessions are not touched by the establishment. -/
theorem establish_usedElsewhere {n : Node} {addr : Addr} {r : EstReq} {n' : Node} {resp : Resp}
    (hstep : n.step (.establish addr r) = (n', .reply resp)) {seid : U64} (hse : resp.fseid = some seid) {K : PdrKey} (hu : ¬ n.used K) :
    ¬ n'.usedElsewhere addr seid K := by
  have hstep' : n.establish addr r = (n', .reply resp) := hstep
  rintro ⟨a', s', x, i, p, hne, hx, hp, hk⟩
  refine hu ⟨a', s', x, i, p, ?_, hp, hk⟩
  cases establish_cases n addr r with
  | refused c hcc he =>
    rw [hstep'] at he
    have : n' = n := congrArg Prod.fst he
    rw [← this]; exact hx
  | ran remote as hs res hid hcp ha hbody hl hrem he =>
    rw [hstep'] at he
    cases res with
    | ok _ =>
      simp only [Node.estResult] at he
      cases he
      cases hse
      simp only [Node.session?, GoMap.get?_set] at hx ⊢
      split at hx
      · subst a'
        simp only [Option.bind_some, Assoc.bumped, GoMap.get?_set] at hx
        split at hx
        · subst s'; exact absurd rfl hne
        · simp [ha, hx]
      · exact hx
    | err => simp only [Node.estResult] at he; cases he; cases hse
    | panic => simp only [Node.estResult] at he; cases he

/-! ### C65 -/

theorem swap_of_octets {x ip : U32} (h : ∀ k, k < 4 → (x.toNat / 256 ^ k) % 256 = (ip.toNat / 256 ^ (3 - k)) % 256) : swap32 x = ip := by
  have hx : x = bswap32 ip := by
    have h2 := bswap32_octet ip
    apply BitVec.eq_of_toNat_eq
    have a0 := h 0 (by omega); have a1 := h 1 (by omega); have a2 := h 2 (by omega); have a3 := h 3 (by omega)
    have b0 := h2 0 (by omega); have b1 := h2 1 (by omega); have b2 := h2 2 (by omega); have b3 := h2 3 (by omega)
    have c0 := a0.trans b0.symm; have c1 := a1.trans b1.symm; have c2 := a2.trans b2.symm; have c3 := a3.trans b3.symm
    simp only [Nat.reducePow, Nat.div_one] at c0 c1 c2 c3
    have := x.isLt; have := (bswap32 ip).isLt
    omega
  subst hx
  exact swap32_swap32 ip

/-- What the forwarding plane has for a rule asked for, given how packets (those that satisfy `G`) are classified right after the establishment,
after any later history elsewhere. -/
theorem rule_after_on {cfg : NodeCfg} {rm : Option ResourceManager} {p f q u : U32} {h1 : List (Ev × Outcome)} {n1 : Node}
    (H1 : HistP (fun n e => e.refsKnown n) (Node.init cfg rm (BpfObjects.load p f q u)) h1 n1)
    {a : Addr} {r : EstReq} {n2 : Node} {resp : Resp} (hstep : n1.step (.establish a r) = (n2, .reply resp)) (hacc : resp.cause = 1)
    {pie : PdrIE} {fie : FarIE} {qie : QerIE} {K : PdrKey} (hK : K ≠ .ul 0) (hused : ¬ n1.used K)
    (hfar : ∃ i l1 l2, pie.farId = some i ∧ fie.farId = some i ∧ r.createFar = l1 ++ fie :: l2 ∧ ∀ x ∈ l2, x.farId.getD 0 ≠ i)
    (hqer : ∃ j l1 l2, pie.qerId = some j ∧ qie.qerId = some j ∧ r.createQer = l1 ++ qie :: l2 ∧ ∀ x ∈ l2, x.qerId ≠ some j)
    {seid : U64} (hs1 : resp.fseid = some seid) {sess : Session} (hs2 : n2.session? a seid = some sess) {pr : SPdr}
    (hg : PdrGiven pie sess pr) {G : (KFilter → Bool) → Prop} (hcl : ∀ m, G m → classify (n2.dp.entry? K) m = some pr.info.rule)
    {h2 : List (Ev × Outcome)} {n3 : Node} (H2 : HistP (Elsewhere a seid K) n2 h2 n3)
    (hb : attempts h2 + attempts h1 + 1 < 2 ^ 64 - 2) :
    ∃ rr far qi k, rr.ohr = pie.ohr.getD 0 ∧ (∀ m, G m → classify (n3.dp.entry? K) m = some rr) ∧
      n3.dp.far.lookup rr.far = some far ∧ FarMerged {} fie far ∧
      n3.dp.qer.lookup rr.qer = some k ∧ QerMerged {} qie qi ∧
      k.gateUL = qi.gateUL ∧ k.gateDL = qi.gateDL ∧ k.qfi = qi.qfi ∧ k.mbrUL = qi.mbrUL ∧ k.mbrDL = qi.mbrDL := by
  obtain ⟨i, m1, m2, fi1, fi2, fi3, fi4⟩ := hfar
  obtain ⟨_, sess1, sf, x1, x2, x3, hfm⟩ := C37_create hstep hacc fi3 (by simpa [fi2] using fi4)
  have : sess1 = sess := by
    rw [hs1] at x1; cases x1
    rw [hs2] at x2; exact (Option.some.inj x2).symm
  rw [this] at x3
  obtain ⟨j, m3, m4, qi1, qi2, qi3, qi4⟩ := hqer
  obtain ⟨j', _, sess2, sq, y0, y1, y2, y3, hqm⟩ := C36_create hstep hacc qi3 (by simpa [qi2] using qi4)
  have : sess2 = sess := by
    rw [hs1] at y1; cases y1
    rw [hs2] at y2; exact (Option.some.inj y2).symm
  rw [this] at y3
  have : j' = j := by rw [qi2] at y0; exact (Option.some.inj y0).symm
  subst this
  simp only [fi2, Option.getD_some] at x3
  have Hs : HistP (fun n e => e.refsKnown n) (Node.init cfg rm (BpfObjects.load p f q u)) ((.establish a r, .reply resp) :: h1) n2 := by
    have := HistP.step (.establish a r) H1 trivial (by rw [hstep]; simp)
    rwa [hstep] at this
  have hb' : attempts (h2 ++ (Ev.establish a r, Outcome.reply resp) :: h1) < 2 ^ 64 - 2 := by
    rw [attempts_append]
    have : attempts ((Ev.establish a r, Outcome.reply resp) :: h1) = attempts h1 + 1 := by simp [attempts]
    omega
  obtain ⟨c1, c2, c3, c4⟩ := C64_history_partial Hs hs2 hK (establish_usedElsewhere hstep hs1 hused) H2 hb'
  obtain ⟨k, k1, k2, k3, k4, k5, k6⟩ := c4 j' sq y3
  refine ⟨pr.info.rule, sf.info, sq.info, k, hg.ohr, ?_, ?_, hfm, ?_, hqm, k2, k3, k4, k5, k6⟩
  · intro m hm
    rw [c1]; exact hcl m hm
  · show n3.dp.far.lookup pr.info.farId = _
    rw [hg.far i sf fi1 x3]
    exact (c3 i sf x3).2
  · show n3.dp.qer.lookup pr.info.qerId = _
    rw [hg.qer j' sq qi1 y3]
    exact k1

/-- The same for a record that is in effect right after the establishment. -/
theorem rule_after {cfg : NodeCfg} {rm : Option ResourceManager} {p f q u : U32} {h1 : List (Ev × Outcome)} {n1 : Node}
    (H1 : HistP (fun n e => e.refsKnown n) (Node.init cfg rm (BpfObjects.load p f q u)) h1 n1)
    {a : Addr} {r : EstReq} {n2 : Node} {resp : Resp} (hstep : n1.step (.establish a r) = (n2, .reply resp)) (hacc : resp.cause = 1)
    {pie : PdrIE} {fie : FarIE} {qie : QerIE} {K : PdrKey} (hK : K ≠ .ul 0) (hused : ¬ n1.used K)
    (hfar : ∃ i l1 l2, pie.farId = some i ∧ fie.farId = some i ∧ r.createFar = l1 ++ fie :: l2 ∧ ∀ x ∈ l2, x.farId.getD 0 ≠ i)
    (hqer : ∃ j l1 l2, pie.qerId = some j ∧ qie.qerId = some j ∧ r.createQer = l1 ++ qie :: l2 ∧ ∀ x ∈ l2, x.qerId ≠ some j)
    {seid : U64} (hs1 : resp.fseid = some seid) {sess : Session} (hs2 : n2.session? a seid = some sess) {pr : SPdr}
    (hg : PdrGiven pie sess pr) (hkey : pr.key = K) (heff : InEffect n2.dp pr)
    {h2 : List (Ev × Outcome)} {n3 : Node} (H2 : HistP (Elsewhere a seid K) n2 h2 n3)
    (hb : attempts h2 + attempts h1 + 1 < 2 ^ 64 - 2) :
    ∃ rr far qi k, rr.ohr = pie.ohr.getD 0 ∧ (∀ m, pie.fits m → classify (n3.dp.entry? K) m = some rr) ∧
      n3.dp.far.lookup rr.far = some far ∧ FarMerged {} fie far ∧
      n3.dp.qer.lookup rr.qer = some k ∧ QerMerged {} qie qi ∧
      k.gateUL = qi.gateUL ∧ k.gateDL = qi.gateDL ∧ k.qfi = qi.qfi ∧ k.mbrUL = qi.mbrUL ∧ k.mbrDL = qi.mbrDL := by
  refine rule_after_on H1 hstep hacc hK hused hfar hqer hs1 hs2 hg (G := pie.fits) ?_ H2 hb
  intro m hm
  rw [← hkey]
  refine heff m ?_
  intro flt hflt
  rcases hsd : pie.sdf with _ | _ | ⟨c, cs⟩
  · rw [hg.noSdf (.inl hsd)] at hflt; cases hflt
  · rw [hg.noSdf (.inr hsd)] at hflt; cases hflt
  · obtain ⟨g, g1, g2⟩ := hg.sdf c cs hsd
    rw [g2] at hflt; cases hflt
    exact hm c cs _ hsd g1

/-- What the forwarding plane has for a rule asked for in an accepted establishment, after any later history elsewhere. -/
theorem asked_rule {cfg : NodeCfg} {rm : Option ResourceManager} {p f q u : U32} {h1 : List (Ev × Outcome)} {n1 : Node}
    (H1 : HistP (fun n e => e.refsKnown n) (Node.init cfg rm (BpfObjects.load p f q u)) h1 n1)
    {a : Addr} {r : EstReq} {n2 : Node} {resp : Resp} (hstep : n1.step (.establish a r) = (n2, .reply resp)) (hacc : resp.cause = 1)
    {pie : PdrIE} {fie : FarIE} {qie : QerIE} {K : PdrKey} (hask : AsksRule r pie fie qie K) (hK : K ≠ .ul 0)
    (hfree : ¬ K.freeIn n1.rm) (hused : ¬ n1.used K)
    {seid : U64} (hse : resp.fseid = some seid) {h2 : List (Ev × Outcome)} {n3 : Node} (H2 : HistP (Elsewhere a seid K) n2 h2 n3)
    (hb : attempts h2 + attempts h1 + 1 < 2 ^ 64 - 2) :
    ∃ rr far qi k, rr.ohr = pie.ohr.getD 0 ∧ (∀ m, pie.fits m → classify (n3.dp.entry? K) m = some rr) ∧
      n3.dp.far.lookup rr.far = some far ∧ FarMerged {} fie far ∧
      n3.dp.qer.lookup rr.qer = some k ∧ QerMerged {} qie qi ∧
      k.gateUL = qi.gateUL ∧ k.gateDL = qi.gateDL ∧ k.qfi = qi.qfi ∧ k.mbrUL = qi.mbrUL ∧ k.mbrDL = qi.mbrDL := by
  obtain ⟨l1, l2, hr, hl2⟩ := hask.pdr
  obtain ⟨id, seid', sess, pr, hid, hs1, hs2, hrec, hg, hkey, heff⟩ := establish_in_effect hstep hacc hask.ids hr hK hask.key hl2 hfree
  have : seid' = seid := Option.some.inj (hs1.symm.trans hse)
  subst this
  exact rule_after H1 hstep hacc hK hused hask.far hask.qer hs1 hs2 hg hkey heff H2 hb

theorem bit_of_mod {d : U16} {x : U8} (hx : x.toNat = d.toNat / 256) (h : (d.toNat / 256) % 2 = 1) : x.getLsbD 0 = true := by
  show x.toNat.testBit 0 = true
  rw [Nat.testBit_zero, hx]; simpa using h

theorem intoTunnel_merged {fie : FarIE} {peer : Ip4} {teid : U32} {tos : U8} (h : fie.intoTunnel peer teid tos) {far : FarInfo} (hm : FarMerged {} fie far) :
    far.action.getLsbD 1 = true ∧ far.ohc.getLsbD 0 = true ∧ swap32 far.remoteIP = peer ∧ far.teid = teid ∧ (far.tlm >>> 8).truncate 8 = tos := by
  obtain ⟨a, as, f1, f2⟩ := h.forw
  obtain ⟨o, o1, o2, o3, o4⟩ := h.ohc
  obtain ⟨t1, t2⟩ := hm.tunnel o o1
  refine ⟨by rw [hm.action.1 a as f1]; exact f2, bit_of_mod t2 o2, swap_of_octets (hm.addr o peer o1 o3), t1.trans o4, ?_⟩
  apply BitVec.eq_of_toNat_eq
  rw [hi8, h.tos]
  congr 2
  cases ht : fie.tlm with
  | none => exact hm.tlm.2 ht
  | some t => exact hm.tlm.1 t ht

/-- A rule that says: forward in this tunnel, with an open gate and no rate limit. -/
theorem tunnel_permits {pie : PdrIE} {fie : FarIE} {qie : QerIE} {K : PdrKey} {peer : Ip4} {teid : U32} {tos : U8} (hfar : fie.intoTunnel peer teid tos)
    (hgate : qie.gateDL.getD 0 = 0) (hmbr : qie.mbrDL.getD 0 = 0) {n3 : Node} {G : (KFilter → Bool) → Prop}
    (hrule : ∃ rr far qi k, rr.ohr = pie.ohr.getD 0 ∧ (∀ m, G m → classify (n3.dp.entry? K) m = some rr) ∧
      n3.dp.far.lookup rr.far = some far ∧ FarMerged {} fie far ∧
      n3.dp.qer.lookup rr.qer = some k ∧ QerMerged {} qie qi ∧
      k.gateUL = qi.gateUL ∧ k.gateDL = qi.gateDL ∧ k.qfi = qi.qfi ∧ k.mbrUL = qi.mbrUL ∧ k.mbrDL = qi.mbrDL) :
    ∃ rr far k, (∀ m, G m → classify (n3.dp.entry? K) m = some rr) ∧ PermitsDl n3.dp rr far k ∧
      (∀ (e : Env) (n : Nat), rateDl e k n = some k.startDL) ∧ ∀ e : Env, tunnelOf e far k = ⟨e.n3Ip, peer, tos, qie.qfi.getD 0, teid⟩ := by
  obtain ⟨rr, far, qi, k, r1, r2, r3, r4, r5, r6, k1, k2, k3, k4, k5⟩ := hrule
  obtain ⟨t1, t2, t3, t4, t5⟩ := intoTunnel_merged hfar r4
  have hg0 : k.gateDL = 0 := by
    rw [k2]
    cases hq : qie.gateDL with
    | none => exact r6.gateDL.2 hq
    | some g => rw [r6.gateDL.1 g hq]; simpa [hq] using hgate
  have hq0 : k.qfi = qie.qfi.getD 0 := by
    rw [k3]
    cases hq : qie.qfi with
    | none => exact r6.qfi.2 hq
    | some g => exact r6.qfi.1 g hq
  have hm0 : k.mbrDL = 0 := by
    rw [k5]
    cases hq : qie.mbrDL with
    | none => exact r6.mbrDL.2 hq
    | some g =>
      have : g = 0 := by simpa [hq] using hmbr
      subst this
      apply BitVec.eq_of_toNat_eq
      rw [r6.mbrDL.1 _ hq]; rfl
  refine ⟨rr, far, k, r2, ⟨r3, t1, t2, r5, hg0⟩, fun e n => ?_, fun e => ?_⟩
  · unfold rateDl limitRate; rw [hm0]; rfl
  · unfold tunnelOf; rw [t3, t4, t5, hq0]

/-- Downlink frames of such a rule. -/
theorem downlink_served {pie : PdrIE} {fie : FarIE} {qie : QerIE} {ip : Ip4} {peer : Ip4} {teid : U32} {tos : U8} (hfar : fie.intoTunnel peer teid tos)
    (hgate : qie.gateDL.getD 0 = 0) (hmbr : qie.mbrDL.getD 0 = 0) {n3 : Node} {G : (KFilter → Bool) → Prop}
    (hrule : ∃ rr far qi k, rr.ohr = pie.ohr.getD 0 ∧ (∀ m, G m → classify (n3.dp.entry? (.dl4 ip)) m = some rr) ∧
      n3.dp.far.lookup rr.far = some far ∧ FarMerged {} fie far ∧
      n3.dp.qer.lookup rr.qer = some k ∧ QerMerged {} qie qi ∧
      k.gateUL = qi.gateUL ∧ k.gateDL = qi.gateDL ∧ k.qfi = qi.qfi ∧ k.mbrUL = qi.mbrUL ∧ k.mbrDL = qi.mbrDL)
    (e : Env) (s : PS) (hdp : s.dp = n3.dp) (hd : IsDown4 e s.frame) (hip : be32 s.frame 30 = ip) (hfit : G (downFlow4 s.frame).sat)
    (hroom : e.headroom ≠ none) :
    ∃ s' fib, runPacket e s = (s', .ok (routeAct e (e.fib fib))) ∧ fib.dst = slice s'.frame 30 4 ∧
      IsTunnelled ⟨e.n3Ip, peer, tos, qie.qfi.getD 0, teid⟩ (be16 s.frame 16) (s.frame.drop 14) s'.frame := by
  obtain ⟨rr, far, k, r2, hp, hrate, ht⟩ := tunnel_permits hfar hgate hmbr hrule
  have hr : dlRule4 s.dp s.frame = some rr := by
    unfold dlRule4
    rw [hdp, hip]
    exact r2 _ hfit
  obtain ⟨s', fib, w1, -, w2, w3⟩ := C27_forwarded4 e s hd hr (by rw [hdp]; exact hp) (hrate e _) hroom
  exact ⟨s', fib, w1, w2, by rw [← ht]; exact w3⟩

/-- The same for IPv6. -/
theorem downlink_served6 {pie : PdrIE} {fie : FarIE} {qie : QerIE} {ip : Ip6} {peer : Ip4} {teid : U32} {tos : U8} (hfar : fie.intoTunnel peer teid tos)
    (hgate : qie.gateDL.getD 0 = 0) (hmbr : qie.mbrDL.getD 0 = 0) {n3 : Node} {G : (KFilter → Bool) → Prop}
    (hrule : ∃ rr far qi k, rr.ohr = pie.ohr.getD 0 ∧ (∀ m, G m → classify (n3.dp.entry? (.dl6 ip)) m = some rr) ∧
      n3.dp.far.lookup rr.far = some far ∧ FarMerged {} fie far ∧
      n3.dp.qer.lookup rr.qer = some k ∧ QerMerged {} qie qi ∧
      k.gateUL = qi.gateUL ∧ k.gateDL = qi.gateDL ∧ k.qfi = qi.qfi ∧ k.mbrUL = qi.mbrUL ∧ k.mbrDL = qi.mbrDL)
    (e : Env) (s : PS) (hdp : s.dp = n3.dp) (hd : IsDown6 s.frame) (hip : be128 (slice s.frame 38 16) = ip) (hfit : G (downFlow6 s.frame).sat)
    (hroom : e.headroom ≠ none) :
    ∃ s' fib, runPacket e s = (s', .ok (routeAct e (e.fib fib))) ∧ fib.dst = slice s'.frame 30 4 ∧
      IsTunnelled ⟨e.n3Ip, peer, tos, qie.qfi.getD 0, teid⟩ (be16 s.frame 18 + 40) (s.frame.drop 14) s'.frame := by
  obtain ⟨rr, far, k, r2, hp, hrate, ht⟩ := tunnel_permits hfar hgate hmbr hrule
  have hr : dlRule6 s.dp s.frame = some rr := by
    unfold dlRule6
    rw [hdp, hip]
    exact r2 _ hfit
  obtain ⟨s', fib, w1, -, w2, w3⟩ := C27_forwarded6 e s hd hr (by rw [hdp]; exact hp) (hrate e _) hroom
  exact ⟨s', fib, w1, w2, by rw [← ht]; exact w3⟩

/-- **C65.** A Session Establishment Request that was accepted asked for packets to the UE address `ip` (fitting the PDR's SDF filter,
if it has one) to be forwarded in the tunnel to `peer`, TEID `teid`, with an open gate, QFI `qfi` and no rate limit. `ip` was neither
free in the UPF's pool nor used by a PDR of any session. Then after every later history of messages that are not about this session
and do not give `ip`, and packets, every downlink frame to `ip` leaves towards `peer` as the unchanged packet in exactly that tunnel (or
gets what the route towards `peer` says). -/
theorem C65_downlink {cfg : NodeCfg} {rm : Option ResourceManager} {p f q u : U32} {h1 : List (Ev × Outcome)} {n1 : Node}
    (H1 : HistP (fun n e => e.refsKnown n) (Node.init cfg rm (BpfObjects.load p f q u)) h1 n1)
    {a : Addr} {r : EstReq} {n2 : Node} {resp : Resp} (hstep : n1.step (.establish a r) = (n2, .reply resp)) (hacc : resp.cause = 1)
    {pie : PdrIE} {fie : FarIE} {qie : QerIE} {ip : Ip4} (hask : AsksRule r pie fie qie (.dl4 ip))
    {peer : Ip4} {teid : U32} {tos : U8} (hfar : fie.intoTunnel peer teid tos)
    (hgate : qie.gateDL.getD 0 = 0) (hmbr : qie.mbrDL.getD 0 = 0)
    (hfree : ip ∉ freeIps n1.rm) (hused : ¬ n1.used (.dl4 ip))
    {seid : U64} (hse : resp.fseid = some seid) {h2 : List (Ev × Outcome)} {n3 : Node} (H2 : HistP (Elsewhere a seid (.dl4 ip)) n2 h2 n3)
    (hb : attempts h2 + attempts h1 + 1 < 2 ^ 64 - 2)
    (e : Env) (s : PS) (hdp : s.dp = n3.dp) (hd : IsDown4 e s.frame) (hip : be32 s.frame 30 = ip) (hfit : pie.fits (downFlow4 s.frame).sat)
    (hroom : e.headroom ≠ none) :
    ∃ s' fib, runPacket e s = (s', .ok (routeAct e (e.fib fib))) ∧ fib.dst = slice s'.frame 30 4 ∧
      IsTunnelled ⟨e.n3Ip, peer, tos, qie.qfi.getD 0, teid⟩ (be16 s.frame 16) (s.frame.drop 14) s'.frame := by
  exact downlink_served hfar hgate hmbr (asked_rule H1 hstep hacc hask (by simp) hfree hused hse H2 hb) e s hdp hd hip hfit hroom

/-- C65, other rates: whatever the rate limit, a downlink frame to `ip` that is sent on is the unchanged packet in that tunnel. -/
theorem C65_downlink_limited {cfg : NodeCfg} {rm : Option ResourceManager} {p f q u : U32} {h1 : List (Ev × Outcome)} {n1 : Node}
    (H1 : HistP (fun n e => e.refsKnown n) (Node.init cfg rm (BpfObjects.load p f q u)) h1 n1)
    {a : Addr} {r : EstReq} {n2 : Node} {resp : Resp} (hstep : n1.step (.establish a r) = (n2, .reply resp)) (hacc : resp.cause = 1)
    {pie : PdrIE} {fie : FarIE} {qie : QerIE} {ip : Ip4} (hask : AsksRule r pie fie qie (.dl4 ip))
    {peer : Ip4} {teid : U32} {tos : U8} (hfar : fie.intoTunnel peer teid tos)
    (hfree : ip ∉ freeIps n1.rm) (hused : ¬ n1.used (.dl4 ip))
    {seid : U64} (hse : resp.fseid = some seid) {h2 : List (Ev × Outcome)} {n3 : Node} (H2 : HistP (Elsewhere a seid (.dl4 ip)) n2 h2 n3)
    (hb : attempts h2 + attempts h1 + 1 < 2 ^ 64 - 2)
    (e : Env) (s s' : PS) (act : XAction) (hrun : runPacket e s = (s', .ok act)) (hsent : act.sent = true)
    (hdp : s.dp = n3.dp) (hd : IsDown4 e s.frame) (hip : be32 s.frame 30 = ip) (hfit : pie.fits (downFlow4 s.frame).sat) :
    qie.gateDL.getD 0 = 0 ∧ IsTunnelled ⟨e.n3Ip, peer, tos, qie.qfi.getD 0, teid⟩ (be16 s.frame 16) (s.frame.drop 14) s'.frame := by
  obtain ⟨rr, far, qi, k, r1, r2, r3, r4, r5, r6, k1, k2, k3, k4, k5⟩ :=
    asked_rule H1 hstep hacc hask (by simp) hfree hused hse H2 hb
  obtain ⟨t1, t2, t3, t4, t5⟩ := intoTunnel_merged hfar r4
  have hq0 : k.qfi = qie.qfi.getD 0 := by
    rw [k3]
    cases hq : qie.qfi with
    | none => exact r6.qfi.2 hq
    | some g => exact r6.qfi.1 g hq
  have hr : dlRule4 s.dp s.frame = some rr := by
    unfold dlRule4
    rw [hdp, hip]
    exact r2 _ hfit
  obtain ⟨r', far', qer', w1, w2, w3⟩ := C27_downlink4 e s s' act hrun hsent hd
  rw [hr] at w1; cases w1
  have e1 : far' = far := Option.some.inj (w2.hasFar.symm.trans (by rw [hdp]; exact r3))
  have e2 : qer' = k := Option.some.inj (w2.hasQer.symm.trans (by rw [hdp]; exact r5))
  subst e1; subst e2
  constructor
  · have hg := w2.gate
    rw [k2] at hg
    cases hq : qie.gateDL with
    | none => rfl
    | some g => rw [r6.gateDL.1 g hq] at hg; exact hg
  · have ht : tunnelOf e far' qer' = ⟨e.n3Ip, peer, tos, qie.qfi.getD 0, teid⟩ := by
      unfold tunnelOf; rw [t3, t4, t5, hq0]
    rw [← ht]; exact w3

/-! ### C66 -/

/-- **C28, nothing lost.** A G-PDU that may be forwarded without outer header, is within the rate, has an outer IPv4 header without options,
no optional fields or 8 octets of them, and carries an IPv4 or IPv6 packet with a complete header that is not ICMP to the UPF itself: it
gets the action of the route to its destination, and what is sent is the payload behind an Ethernet header of the right type. -/
theorem C28_forwarded_partial (e : Env) (s : PS) (hm : IsGtpMsg e s.frame 255) {r : Rule} {far : FarInfo} {qer : QerInfo} (hr : ulRule s.dp s.frame = some r)
    (hp : PermitsUl s.dp r far qer) (hoc : far.ohc.getLsbD 0 = false) (hohr : r.ohr = 0) (h34 : l4Off s.frame = 34)
    {start : U64} (hrate : rateUl e qer s.frame.length = some start)
    {o : Nat} (hpay : PayloadAt s.frame o) (ho : o = gtpOff s.frame + 8 ∨ o = gtpOff s.frame + 16)
    (hin : ((oct s.frame o).toNat / 16 = 4 ∧ o + 20 ≤ s.frame.length) ∨ ((oct s.frame o).toNat / 16 = 6 ∧ o + 40 ≤ s.frame.length))
    (hself : ¬ ((oct s.frame o).toNat / 16 = 4 ∧ oct s.frame (o + 9) = 1 ∧ (be32 s.frame (o + 16) = e.n3Ip ∨ be32 s.frame (o + 16) = e.n9Ip))) :
    ∃ s' fib m t, runPacket e s = (s', .ok (routeAct e (e.fib fib))) ∧ m.length = 12 ∧ etherTypeOf (s.frame.drop o) = some t ∧
      s'.frame = m ++ t ++ s.frame.drop o ∧
      fib.dst = if (oct s.frame o).toNat / 16 = 4 then slice s.frame (o + 16) 4 else slice s.frame (o + 24) 16 := by
  obtain ⟨s', act, hrun, res, _⟩ := entry_outcome e s
  suffices key : ∃ fib m t, act = routeAct e (e.fib fib) ∧ m.length = 12 ∧ etherTypeOf (s.frame.drop o) = some t ∧ s'.frame = m ++ t ++ s.frame.drop o ∧
      fib.dst = if (oct s.frame o).toNat / 16 = 4 then slice s.frame (o + 16) 4 else slice s.frame (o + 24) 16 by
    obtain ⟨fib, m, t, k1, k2⟩ := key
    exact ⟨s', fib, m, t, k1 ▸ hrun, k2⟩
  clear hrun
  generalize s'.frame = fr at res ⊢
  generalize s'.dp = dp at res
  have hi := payload_innerOff hpay ho
  have hcl : cutLen s.frame + 14 = o := by rw [← hi]; unfold cutLen innerOff gtpOff; rw [h34]; omega
  have hl := hm.len
  have hl' := hm.gtpu.ip.len
  have hx : ∀ {t}, IsGtpMsg e s.frame t → t = 255 := fun h => by rw [← h.type, hm.type]
  have same : ∀ {r' : Rule} {far' : FarInfo} {qer' : QerInfo}, ulRule s.dp s.frame = some r' → PermitsUl s.dp r' far' qer' → r' = r ∧ far' = far ∧ qer' = qer := by
    intro r' far' qer' q1 q2
    have : r' = r := Option.some.inj (q1.symm.trans hr)
    subst this
    exact ⟨rfl, Option.some.inj (q2.hasFar.symm.trans hp.hasFar), Option.some.inj (q2.hasQer.symm.trans hp.hasQer)⟩
  have hcut : cutOk s.frame := by
    unfold cutOk innerType
    rw [hcl]
    rcases hin with ⟨h4, hlen⟩ | ⟨h6, hlen⟩
    · exact .inl ⟨by rw [if_pos h4], by omega⟩
    · exact .inr ⟨by rw [if_neg (by omega), if_pos h6], by omega⟩
  have oo : ∀ t i, 14 ≤ i → oct (cutFrame s.frame t) i = oct s.frame (o + (i - 14)) := by
    intro t i h14
    unfold cutFrame
    rw [oct_append, if_neg (by simp; omega), oct_drop, hcl]
    congr 2
    simp only [List.length_append, List.length_take, bytes16_length]; omega
  have sl : ∀ t i k, 14 ≤ i → slice (cutFrame s.frame t) i k = slice s.frame (o + (i - 14)) k := by
    intro t i k h14
    unfold slice cutFrame
    rw [List.drop_append, List.drop_of_length_le (by simp only [List.length_append, List.length_take, bytes16_length]; omega), List.nil_append, List.drop_drop]
    congr 2
    simp only [List.length_append, List.length_take, bytes16_length]; omega
  have shape : ∀ (t : U16) (ans : FibAns), innerType s.frame = some t →
      ∃ m t', m.length = 12 ∧ etherTypeOf (s.frame.drop o) = some t' ∧ macRewrite (cutFrame s.frame t) ans = m ++ t' ++ s.frame.drop o := by
    intro t ans ht
    have l12 : 12 ≤ (cutFrame s.frame t).length := by
      unfold cutFrame
      simp only [List.length_append, List.length_take, List.length_drop, bytes16_length]; omega
    obtain ⟨m, hm, h⟩ := macRewrite_shape l12 ans
    refine ⟨m, bytes16 (swap16 t), hm, ?_, ?_⟩
    · unfold innerType at ht
      unfold etherTypeOf
      rw [hcl] at ht
      rw [oct_drop, Nat.add_zero]
      split at ht
      · rename_i hv; cases ht; rw [if_pos hv]; rfl
      · rename_i hv
        rw [if_neg hv]
        split at ht
        · rename_i hv6; cases ht; rw [if_pos hv6]; rfl
        · cases ht
    · rw [h, cutFrame_tail (by omega), hcl, List.append_assoc]
  have toself : ∀ {g}, g = cutFrame s.frame 0x0800 → innerType s.frame = some 0x0800 → ToSelf e g → False := by
    intro g hg hv ht
    subst hg
    apply hself
    unfold ToSelf be32 at ht
    unfold be32
    rw [oo _ 23 (by omega), oo _ 30 (by omega), oo _ 31 (by omega), oo _ 32 (by omega), oo _ 33 (by omega)] at ht
    refine ⟨?_, ht⟩
    unfold innerType at hv
    rw [hcl] at hv
    split at hv
    · assumption
    · split at hv <;> cases hv
  cases res with
  | foreign h => exact absurd hm (h.notMsg _)
  | otherMsg h h1 _ => exact absurd (hx h) h1
  | echo h => exact absurd (hx h) (by decide)
  | down4 h _ => exact absurd hm.gtpu h.notGtpu
  | down6 h _ => exact absurd (h.ip.type.symm.trans hm.gtpu.ip.type) (by decide)
  | gpdu _ res =>
    cases res with
    | unclassified h => rw [hr] at h; cases h
    | denied h1 h2 => rw [hr] at h1; cases h1; exact absurd ⟨_, _, hp⟩ h2
    | policed h1 h2 h3 => rw [(same h1 h2).2.2, hrate] at h3; cases h3
    | garbled _ _ _ _ _ _ _ h => exact absurd hcut h
    | selfOther g _ _ _ _ _ _ _ _ q5 q3 q4 _ => exact absurd q4 (fun h => toself q3 q5 h)
    | n9 g _ q1 q2 _ q3 => rw [(same q1 q2).2.1, hoc] at q3; cases q3
    | kept _ q1 q2 _ _ q3 => rw [(same q1 q2).1] at q3; exact absurd hohr q3
    | cut4 g _ q1 q2 _ _ _ _ q5 q3 q4 =>
      subst q3
      obtain ⟨m, t, a1, a2, a3⟩ := shape _ (e.fib (fibReq4 e (cutFrame s.frame 0x0800))) q5
      refine ⟨_, m, t, rfl, a1, a2, a3, ?_⟩
      have hv : (oct s.frame o).toNat / 16 = 4 := by
        unfold innerType at q5
        rw [hcl] at q5
        split at q5
        · assumption
        · split at q5 <;> cases q5
      rw [if_pos hv]
      exact sl _ 30 4 (by omega)
    | cut6 g _ q1 q2 _ _ _ _ q5 q3 =>
      subst q3
      obtain ⟨m, t, a1, a2, a3⟩ := shape _ (e.fib (fibReq6 e (cutFrame s.frame 0x86DD))) q5
      refine ⟨_, m, t, rfl, a1, a2, a3, ?_⟩
      have hv : (oct s.frame o).toNat / 16 ≠ 4 := by
        unfold innerType at q5
        rw [hcl] at q5
        split at q5
        · cases q5
        · assumption
      rw [if_neg hv]
      exact sl _ 38 16 (by omega)
    | ping g _ q1 q2 _ _ _ q6 q5 q3 q4 _ d => exact absurd q4 (fun h => toself q3 q5 h)

/-- The uplink frame of the demonstration tables meets all this. -/
example : IsGtpMsg DemoDp.env DemoDp.up 255 ∧ ulRule DemoDp.dp DemoDp.up = some ⟨0, 0, 0⟩ ∧ l4Off DemoDp.up = 34 ∧
    PayloadAt DemoDp.up (gtpOff DemoDp.up + 8) ∧ (oct DemoDp.up (gtpOff DemoDp.up + 8)).toNat / 16 = 4 ∧ gtpOff DemoDp.up + 8 + 20 ≤ DemoDp.up.length ∧
    oct DemoDp.up (gtpOff DemoDp.up + 8 + 9) ≠ 1 ∧ (runPacket DemoDp.env (DemoDp.ps DemoDp.up)).2 = .ok (.redirect 7) :=
  ⟨DemoDp.up_gpdu, by decide +kernel, by decide, .plain (by decide), by decide, by decide, by decide, by decide +kernel⟩

/-- G-PDUs of a rule that says: decapsulate and forward, with an open gate and no rate limit. -/
theorem uplink_served {pie : PdrIE} {fie : FarIE} {qie : QerIE} {t : U32} (hohr : pie.ohr.getD 0 = 0)
    (hfar : fie.plain) (hgate : qie.gateUL.getD 0 = 0) (hmbr : qie.mbrUL.getD 0 = 0) {n3 : Node} {G : (KFilter → Bool) → Prop}
    (hrule : ∃ rr far qi k, rr.ohr = pie.ohr.getD 0 ∧ (∀ m, G m → classify (n3.dp.entry? (.ul t)) m = some rr) ∧
      n3.dp.far.lookup rr.far = some far ∧ FarMerged {} fie far ∧
      n3.dp.qer.lookup rr.qer = some k ∧ QerMerged {} qie qi ∧
      k.gateUL = qi.gateUL ∧ k.gateDL = qi.gateDL ∧ k.qfi = qi.qfi ∧ k.mbrUL = qi.mbrUL ∧ k.mbrDL = qi.mbrDL)
    (e : Env) (s : PS) (hdp : s.dp = n3.dp) (hm : IsGtpMsg e s.frame 255) (hteid : gtpTeid s.frame = t)
    {fl : Flow} (hfl : innerFlow s.frame = some fl) (hfit : G fl.sat)
    (h34 : l4Off s.frame = 34) {o : Nat} (hpay : PayloadAt s.frame o) (ho : o = gtpOff s.frame + 8 ∨ o = gtpOff s.frame + 16)
    (hin : ((oct s.frame o).toNat / 16 = 4 ∧ o + 20 ≤ s.frame.length) ∨ ((oct s.frame o).toNat / 16 = 6 ∧ o + 40 ≤ s.frame.length))
    (hself : ¬ ((oct s.frame o).toNat / 16 = 4 ∧ oct s.frame (o + 9) = 1 ∧ (be32 s.frame (o + 16) = e.n3Ip ∨ be32 s.frame (o + 16) = e.n9Ip))) :
    ∃ s' fib m ty, runPacket e s = (s', .ok (routeAct e (e.fib fib))) ∧ m.length = 12 ∧ etherTypeOf (s.frame.drop o) = some ty ∧
      s'.frame = m ++ ty ++ s.frame.drop o ∧
      fib.dst = if (oct s.frame o).toNat / 16 = 4 then slice s.frame (o + 16) 4 else slice s.frame (o + 24) 16 := by
  obtain ⟨rr, far, qi, k, r1, r2, r3, r4, r5, r6, k1, k2, k3, k4, k5⟩ := hrule
  obtain ⟨c, cs, f1, f2⟩ := hfar.forw
  have hg0 : k.gateUL = 0 := by
    rw [k1]
    cases hq : qie.gateUL with
    | none => exact r6.gateUL.2 hq
    | some g => rw [r6.gateUL.1 g hq]; simpa [hq] using hgate
  have hm0 : k.mbrUL = 0 := by
    rw [k4]
    cases hq : qie.mbrUL with
    | none => exact r6.mbrUL.2 hq
    | some g =>
      have : g = 0 := by simpa [hq] using hmbr
      subst this
      apply BitVec.eq_of_toNat_eq
      rw [r6.mbrUL.1 _ hq]; rfl
  have hr : ulRule s.dp s.frame = some rr := by
    have hc := r2 _ hfit
    unfold ulRule
    rw [hdp, hteid]
    have he : n3.dp.entry? (.ul t) = n3.dp.pdrUl.lookup t := rfl
    rw [he] at hc
    cases hl : n3.dp.pdrUl.lookup t with
    | none => rw [hl] at hc; cases hc
    | some pe =>
      rw [hl] at hc
      simp only []
      split
      · rename_i h0
        rw [← hc]; simp [classify, h0]
      · rw [hfl]; exact hc
  have hp : PermitsUl s.dp rr far k := ⟨by rw [hdp]; exact r3, by rw [r4.action.1 c cs f1]; exact f2, by rw [hdp]; exact r5, hg0⟩
  have hrate : rateUl e k s.frame.length = some k.startUL := by
    unfold rateUl limitRate; rw [hm0]; rfl
  have hoc : far.ohc.getLsbD 0 = false := by rw [(r4.noTunnel hfar.noOhc).2.1]; rfl
  exact C28_forwarded_partial e s hm hr hp hoc (r1.trans hohr) h34 hrate hpay ho hin hself

/-- **C66** (for G-PDUs as in `C28_forwarded_partial`). A Session Establishment Request that was accepted asked for uplink G-PDUs with TEID `t ≠ 0` (whose
payload fits the PDR's SDF filter, if it has one) to be decapsulated and forwarded, with an open gate and no rate limit. `t` was neither
free in the UPF's pool nor used by a PDR of any session. Then after every later history of messages that are not about this session
and do not give `t`, and packets, every such G-PDU leaves as its payload, routed by the payload's destination. -/
theorem C66_uplink_partial {cfg : NodeCfg} {rm : Option ResourceManager} {p f q u : U32} {h1 : List (Ev × Outcome)} {n1 : Node}
    (H1 : HistP (fun n e => e.refsKnown n) (Node.init cfg rm (BpfObjects.load p f q u)) h1 n1)
    {a : Addr} {r : EstReq} {n2 : Node} {resp : Resp} (hstep : n1.step (.establish a r) = (n2, .reply resp)) (hacc : resp.cause = 1)
    {pie : PdrIE} {fie : FarIE} {qie : QerIE} {t : U32} (ht : t ≠ 0) (hask : AsksRule r pie fie qie (.ul t)) (hohr : pie.ohr.getD 0 = 0)
    (hfar : fie.plain) (hgate : qie.gateUL.getD 0 = 0) (hmbr : qie.mbrUL.getD 0 = 0)
    (hfree : t ∉ freeTeids n1.rm) (hused : ¬ n1.used (.ul t))
    {seid : U64} (hse : resp.fseid = some seid) {h2 : List (Ev × Outcome)} {n3 : Node} (H2 : HistP (Elsewhere a seid (.ul t)) n2 h2 n3)
    (hb : attempts h2 + attempts h1 + 1 < 2 ^ 64 - 2)
    (e : Env) (s : PS) (hdp : s.dp = n3.dp) (hm : IsGtpMsg e s.frame 255) (hteid : gtpTeid s.frame = t)
    {fl : Flow} (hfl : innerFlow s.frame = some fl) (hfit : pie.fits fl.sat)
    (h34 : l4Off s.frame = 34) {o : Nat} (hpay : PayloadAt s.frame o) (ho : o = gtpOff s.frame + 8 ∨ o = gtpOff s.frame + 16)
    (hin : ((oct s.frame o).toNat / 16 = 4 ∧ o + 20 ≤ s.frame.length) ∨ ((oct s.frame o).toNat / 16 = 6 ∧ o + 40 ≤ s.frame.length))
    (hself : ¬ ((oct s.frame o).toNat / 16 = 4 ∧ oct s.frame (o + 9) = 1 ∧ (be32 s.frame (o + 16) = e.n3Ip ∨ be32 s.frame (o + 16) = e.n9Ip))) :
    ∃ s' fib m ty, runPacket e s = (s', .ok (routeAct e (e.fib fib))) ∧ m.length = 12 ∧ etherTypeOf (s.frame.drop o) = some ty ∧
      s'.frame = m ++ ty ++ s.frame.drop o ∧
      fib.dst = if (oct s.frame o).toNat / 16 = 4 then slice s.frame (o + 16) 4 else slice s.frame (o + 24) 16 := by
  exact uplink_served hohr hfar hgate hmbr (asked_rule H1 hstep hacc hask (by simpa using ht) hfree hused hse H2 hb) e s hdp hm hteid hfl hfit h34
    hpay ho hin hself

/-! ### a concrete case of C64, C65, C66 -/

/-- Establishment of a session for UE 10.60.0.1: uplink TEID 0x100, downlink tunnel to 10.0.3.20 with TEID 0x200, QFI 9. -/
def Demo.svc : EstReq :=
  { seq := 7, nodeId := some (some ()), cpFseid := some (some 100),
    createFar := [{ kind := .create, farId := some 1, applyAction := some [2] },
                  { kind := .create, farId := some 2, applyAction := some [2], forward := some (some (some ⟨0x0100, 0x200, some 0x0A000314, false⟩)), tlm := some 0x1CFF }],
    createQer := [{ qerId := some 1, qfi := some 9 }],
    createPdr := [{ pdrId := some 1, farId := some 1, qerId := some 1, ohr := some 0, pdi := some { fteid := some (some ⟨0x100, false, none⟩) } },
                  { pdrId := some 2, farId := some 2, qerId := some 1, pdi := some { ueip := some (some { ipv4 := some 0x0A3C0001 }) } }] }
/-- two peers are associated -/
def Demo.nSvc0 : Node := (Demo.n0.run [.assocSetup 1 1 (some (some ())) (some (some ())), .assocSetup 2 1 (some (some ())) (some (some ()))]).1
/-- peer 1 has established the session -/
def Demo.nSvc : Node := (Demo.nSvc0.step (.establish 1 Demo.svc)).1
/-- then peer 2 has established another one, and deleted it -/
def Demo.nSvc2 : Node := (Demo.nSvc.step (.establish 2 (Demo.est 200))).1
def Demo.nSvc3 : Node := (Demo.nSvc2.step (.delete 2 ⟨2, 9⟩ default)).1

theorem Demo.two_hist : ∃ h, HistP (fun n e => e.refsKnown n) Demo.n0 h Demo.nSvc0 ∧ attempts h = 0 := by
  have s1 := HistP.step (P := fun n e => e.refsKnown n) (n0 := Demo.n0) (.assocSetup 1 1 (some (some ())) (some (some ()))) .init trivial (by decide +kernel)
  have s2 := HistP.step (.assocSetup 2 1 (some (some ())) (some (some ()))) s1 trivial (by decide +kernel)
  exact ⟨_, s2, by simp [attempts]⟩
theorem Demo.two_empty (a : Addr) (s : U64) : Demo.nSvc0.session? a s = none := by
  have h2 := (C05_association_messages (Demo.n0.step (.assocSetup 1 1 (some (some ())) (some (some ())))).1 a s
    (.assocSetup 2 1 (some (some ())) (some (some ()))) rfl).1
  have h1 := (C05_association_messages Demo.n0 a s (.assocSetup 1 1 (some (some ())) (some (some ()))) rfl).1
  have h0 : Demo.n0.session? a s = none := rfl
  rw [h0] at h1
  rw [h1] at h2
  exact h2
theorem Demo.two_unused (k : PdrKey) : ¬ Demo.nSvc0.used k := by
  rintro ⟨a, s, x, i, p, hx, -⟩
  rw [Demo.two_empty] at hx; cases hx
def Demo.svcResp : Resp := { type := .establishment, seid := 100, seq := 7, cause := 1, fseid := some 2 }
theorem Demo.svc_step : Demo.nSvc0.step (.establish 1 Demo.svc) = (Demo.nSvc, .reply Demo.svcResp) := by
  have : (Demo.nSvc0.step (.establish 1 Demo.svc)).2 = .reply Demo.svcResp := by decide +kernel
  exact Prod.ext (by simp only [Demo.nSvc]) this
theorem Demo.svc_later {k : PdrKey} (hk : k = .ul 0x100 ∨ k = .dl4 0x0A3C0001) : ∃ h, HistP (Elsewhere 1 2 k) Demo.nSvc h Demo.nSvc3 ∧ attempts h = 1 := by
  suffices h : Elsewhere 1 2 k Demo.nSvc (.establish 2 (Demo.est 200)) ∧ Elsewhere 1 2 k Demo.nSvc2 (.delete 2 ⟨2, 9⟩ default) by
    have s1 := HistP.step (P := Elsewhere 1 2 k) (n0 := Demo.nSvc) (.establish 2 (Demo.est 200)) .init h.1 (by decide +kernel)
    have s2 := HistP.step (.delete 2 ⟨2, 9⟩ default) s1 h.2 (by decide +kernel)
    exact ⟨_, s2, by simp [attempts]⟩
  constructor
  · refine ⟨trivial, id, ?_, ?_⟩
    · rintro ⟨ie, hie, h⟩
      simp only [Demo.est, List.mem_cons, List.not_mem_nil, or_false] at hie
      rcases hk with rfl | rfl
      · obtain ⟨pdi, f, a1, a2, a3, -⟩ := h
        rcases hie with rfl | rfl
        · cases a1; cases a2; cases a3
        · cases a1; cases a2
      · obtain ⟨pdi, f, a1, a2, a3, a4⟩ := h
        rcases hie with rfl | rfl
        · cases a1; cases a2
        · cases a1; cases a3; cases a4
    · rcases hk with rfl | rfl
      · show ¬ (0x100 : U32) ∈ freeTeids Demo.nSvc.rm; decide +kernel
      · show ¬ (0x0A3C0001 : Ip4) ∈ freeIps Demo.nSvc.rm; decide +kernel
  · refine ⟨trivial, ?_, id, ?_⟩
    · rintro ⟨h, -⟩; revert h; decide
    · rcases hk with rfl | rfl
      · show ¬ (0x100 : U32) ∈ freeTeids Demo.nSvc2.rm; decide +kernel
      · show ¬ (0x0A3C0001 : Ip4) ∈ freeIps Demo.nSvc2.rm; decide +kernel

/-- Non-vacuity of C66: the uplink frame of TEID 0x100 is decapsulated by the node `Demo.nSvc3`. -/
example : ∃ (pie : PdrIE) (fie : FarIE) (qie : QerIE), AsksRule Demo.svc pie fie qie (.ul 0x100) ∧ fie.plain ∧ pie.ohr.getD 0 = 0 ∧
    qie.gateUL.getD 0 = 0 ∧ qie.mbrUL.getD 0 = 0 ∧ (0x100 : U32) ∉ freeTeids Demo.nSvc0.rm ∧
    (runPacket DemoDp.env ⟨DemoDp.up, Demo.nSvc3.dp, {}, {}⟩).2 = .ok (.redirect 7) ∧
    (runPacket DemoDp.env ⟨DemoDp.up, Demo.nSvc3.dp, {}, {}⟩).1.frame = List.replicate 6 0xBB ++ List.replicate 6 0xAA ++ [8, 0] ++ DemoDp.ueUp := by
  refine ⟨_, _, _, ⟨by decide, ?_, ⟨[], _, rfl, ?_⟩, ⟨1, [], _, rfl, rfl, rfl, by decide⟩, ⟨1, [], [], rfl, rfl, rfl, by simp⟩⟩,
    ⟨⟨2, [], rfl, rfl⟩, by simp⟩, rfl, rfl, rfl, by decide +kernel, by decide +kernel, by decide +kernel⟩
  · exact ⟨_, _, rfl, rfl, rfl, rfl⟩
  · intro x hx
    simp only [List.mem_singleton] at hx
    subst hx
    rintro ⟨pdi, f, a1, a2, -⟩
    cases a1; cases a2

/-- Non-vacuity of C65: the downlink frame to 10.60.0.1 is sent to 10.0.3.20 with TEID 0x200 by the node `Demo.nSvc3`. -/
example : ∃ (pie : PdrIE) (fie : FarIE) (qie : QerIE), AsksRule Demo.svc pie fie qie (.dl4 0x0A3C0001) ∧ fie.intoTunnel 0x0A000314 0x200 0x1C ∧
    qie.gateDL.getD 0 = 0 ∧ qie.mbrDL.getD 0 = 0 ∧ qie.qfi.getD 0 = 9 ∧ (0x0A3C0001 : Ip4) ∉ freeIps Demo.nSvc0.rm ∧
    (runPacket DemoDp.env ⟨DemoDp.down, Demo.nSvc3.dp, {}, {}⟩).2 = .ok (.redirect 7) ∧
    be32 (runPacket DemoDp.env ⟨DemoDp.down, Demo.nSvc3.dp, {}, {}⟩).1.frame 30 = 0x0A000314 ∧
    be32 (runPacket DemoDp.env ⟨DemoDp.down, Demo.nSvc3.dp, {}, {}⟩).1.frame 46 = 0x200 := by
  refine ⟨_, _, _, ⟨by decide, ?_, ⟨[_], [], rfl, by simp⟩, ⟨2, [_], [], rfl, rfl, rfl, by simp⟩, ⟨1, [], [], rfl, rfl, rfl, by simp⟩⟩,
    ⟨⟨2, [], rfl, rfl⟩, ⟨_, rfl, by decide, rfl, rfl⟩, by decide⟩, rfl, rfl, rfl, by decide +kernel, by decide +kernel, by decide +kernel, by decide +kernel⟩
  exact ⟨_, _, rfl, rfl, rfl, rfl, rfl⟩

/-- And so for every downlink frame: C65 applied to this history. -/
example (e : Env) (s : PS) (hdp : s.dp = Demo.nSvc3.dp) (hd : IsDown4 e s.frame) (hip : be32 s.frame 30 = 0x0A3C0001) (hroom : e.headroom ≠ none) :
    ∃ s' fib, runPacket e s = (s', .ok (routeAct e (e.fib fib))) ∧ fib.dst = slice s'.frame 30 4 ∧
      IsTunnelled ⟨e.n3Ip, 0x0A000314, 0x1C, 9, 0x200⟩ (be16 s.frame 16) (s.frame.drop 14) s'.frame := by
  obtain ⟨h1, H1, b1⟩ := Demo.two_hist
  obtain ⟨h2, H2, b2⟩ := Demo.svc_later (k := .dl4 0x0A3C0001) (.inr rfl)
  exact C65_downlink (qie := { qerId := some 1, qfi := some 9 }) (pie := Demo.svc.createPdr[1]) (fie := Demo.svc.createFar[1]) H1 Demo.svc_step rfl
    ⟨by decide, ⟨_, _, rfl, rfl, rfl, rfl, rfl⟩, ⟨[_], [], rfl, by simp⟩, ⟨2, [_], [], rfl, rfl, rfl, by simp⟩, ⟨1, [], [], rfl, rfl, rfl, by simp⟩⟩
    ⟨⟨2, [], rfl, rfl⟩, ⟨_, rfl, by decide, rfl, rfl⟩, by decide⟩ rfl rfl (by decide +kernel) (Demo.two_unused _) rfl H2 (by omega) e s hdp hd hip
    (fun c cs f h => by cases h) hroom

end Eupf
