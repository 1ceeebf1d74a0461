import Verif.Spec.FilterText
import Verif.Props.SdfMatch
import Verif.Props.EndToEnd
import Verif.Props.Replies
/-
C91: packet filters given as text, from the request to the packet.
-/
namespace Eupf
open Sdf

/-! ### keys that were never given -/

theorem about_one {e : Ev} {a b : Addr} {s : U64} (h1 : e.about a s) (h2 : e.about b s) : a = b := by
  cases e <;> simp only [Ev.about] at h1 h2
  · exact h1.1.symm.trans h2.1
  · exact h1.1.symm.trans h2.1
  · exact h1.symm.trans h2

theorem exists_other (n : Node) (e : Ev) : ∃ a, n.assocs.get? a = none ∧ ¬ e.about a 0 := by
  have hle : ∀ (l : List Addr) (x : Addr), x ∈ l → x ≤ l.foldr max 0 := by
    intro l
    induction l with
    | nil => intro x hx; cases hx
    | cons y l ih =>
      intro x hx
      simp only [List.foldr_cons]
      rcases List.mem_cons.1 hx with rfl | hx
      · exact Nat.le_max_left _ _
      · exact Nat.le_trans (ih x hx) (Nat.le_max_right _ _)
  have hno : ∀ m, (n.assocs.keys).foldr max 0 < m → n.assocs.get? m = none := by
    intro m hm
    cases h : n.assocs.get? m with
    | none => rfl
    | some v =>
      have := hle _ _ ((GoMap.mem_keys_iff _ _).2 (by rw [h]; simp))
      exact absurd hm (Nat.not_lt.2 this)
  by_cases h1 : e.about ((n.assocs.keys).foldr max 0 + 1) 0
  · refine ⟨(n.assocs.keys).foldr max 0 + 2, hno _ (Nat.lt_trans (Nat.lt_succ_self _) (Nat.lt_succ_self _)), fun h2 => ?_⟩
    have : (n.assocs.keys).foldr max 0 + 1 = (n.assocs.keys).foldr max 0 + 2 := about_one h1 h2
    exact absurd this (Nat.ne_of_lt (Nat.lt_succ_self _))
  · exact ⟨_, hno _ (Nat.lt_succ_self _), h1⟩

/-- A key that no message gave has no entry, and no session uses it. -/
theorem never_given {cfg : NodeCfg} {rm : Option ResourceManager} {p f q u : U32} {K : PdrKey} (hK : K ≠ .ul 0)
    {h : List (Ev × Outcome)} {n : Node} (H : HistP (NeverGiven K) (Node.init cfg rm (BpfObjects.load p f q u)) h n) :
    n.dp.entry? K = none ∧ ¬ n.used K := by
  induction H with
  | init =>
    refine ⟨by cases K <;> rfl, ?_⟩
    rintro ⟨a, s, x, i, p, hx, -⟩
    simp [Node.session?, Node.init] at hx
  | traffic _ t ih => exact ⟨by rw [← ih.1]; exact entry_pdr t.pdrUl t.pdrDl4 t.pdrDl6 K, ih.2⟩
  | @step h n e _ hp _ ih =>
    obtain ⟨a, ha, hab⟩ := exists_other n e
    have hno : n.session? a 0 = none := by simp [Node.session?, ha]
    obtain ⟨g1, g2, g3⟩ := guard_step hK e (a := a) (s := 0) (fun as h => by rw [ha] at h; cases h) hab hp.unnamed hp.notFree
      (fun ⟨a', s', x, i, p, _, hx, h⟩ => ih.2 ⟨a', s', x, i, p, hx, h⟩)
    refine ⟨by rw [g1]; exact ih.1, ?_⟩
    rintro ⟨a', s', x, i, p, hx, h⟩
    by_cases he : (a', s') = (a, 0)
    · cases he
      rw [g2, hno] at hx; cases hx
    · exact g3 ⟨a', s', x, i, p, he, hx, h⟩

/-! ### the entry after an establishment -/

theorem creates_keep {K : PdrKey} (hK : K ≠ .ul 0) {ue : Bool} {l : List PdrIE} (hl : ∀ x ∈ l, ¬ x.names K) {s s' : HS} (hk : KN K s)
    (h : Act.each (createPdr ue) l s = (s', .ok ())) : s'.dp.entry? K = s.dp.entry? K :=
  (pres_each_ok (I := KF K (fun _ => False) (s.dp.entry? K)) (fun x hx => kf_create hK (hl x hx)) h
    ⟨⟨rfl, fun _ _ h => h.elim⟩, hk.free, hk.cache⟩).ent

/-- the record of a Create PDR in an accepted establishment, and the entry it makes from the one before -/
theorem create_on {K : PdrKey} {ue : Bool} {ie : PdrIE} {l2 : List PdrIE} (hon : ie.matchesOn K) {s s1 s' : HS}
    (hnd : ((ie :: l2).map (·.pdrId)).Nodup) (h1 : createPdr ue ie s = (s1, .ok ())) (h2 : Act.each (createPdr ue) l2 s1 = (s', .ok ())) :
    ∃ p, PdrGiven ie s'.sess p ∧ s1.dp.entry? K = some (pdrToStore (s.dp.entry? K) p.info) := by
  obtain ⟨id, p, v, hid, hx, hsess, -, -, -, hent⟩ := createPdr_ok h1
  rw [List.map_cons, List.nodup_cons] at hnd
  obtain ⟨i1, i2, i3, i4⟩ := puts_later (createPdr_puts _) l2 s1 s' h2 hnd.2
  have hg : PdrGiven ie s'.sess p := given_of hx _ (by rw [i3, hsess]; rfl) (by rw [i4, hsess]; rfl)
  have hk : p.key = K := by
    cases K with
    | ul t => obtain ⟨pdi, f, a, b, c, d⟩ := hon; rw [hg.teid pdi f a b c, d]
    | dl4 ip => obtain ⟨pdi, w, a, b, c, d, e⟩ := hon; exact hg.ue4 pdi w ip a b c d e
    | dl6 ip => obtain ⟨pdi, w, a, b, c, d, e, e'⟩ := hon; exact hg.ue6 pdi w ip a b c d e e'
  refine ⟨p, hg, ?_⟩
  rw [hent, hk, if_pos rfl]

/-- The Create PDRs of an accepted establishment run one after the other, from a state with the table entries of before. -/
theorem establish_creates {n : Node} {addr : Addr} {r : EstReq} {n' : Node} {resp : Resp}
    (hstep : n.step (.establish addr r) = (n', .reply resp)) (hacc : resp.cause = 1) {K : PdrKey} (hfree : ¬ K.freeIn n.rm) :
    ∃ seid s s', resp.fseid = some seid ∧ Act.each (createPdr n.ueip) r.createPdr s = (s', .ok ()) ∧ KN K s ∧ s.dp.entry? K = n.dp.entry? K ∧
      n'.session? addr seid = some s'.sess ∧ n'.dp = s'.dp := by
  obtain ⟨seid, remote, hs', h1, h2, hb, h3, h4, -, -⟩ := establish_accepted hstep hacc
  unfold establishBody at hb
  obtain ⟨_, s0, e0, hb⟩ := bind_ok hb
  obtain rfl := display_ok e0
  obtain ⟨_, s1, e1, hb⟩ := bind_ok hb
  obtain ⟨_, s2, e2, hb⟩ := bind_ok hb
  obtain ⟨_, s3, e3, e4⟩ := bind_ok hb
  have k0 : KN K (n.hs (Session.new seid remote)) ∧ (n.hs (Session.new seid remote)).dp.entry? K = n.dp.entry? K :=
    ⟨⟨hfree, fun c v hv => by simp [Node.hs] at hv⟩, rfl⟩
  have fr : ∀ {α : Type} {f : α → Act HS Unit} {l : List α} {s s' : HS}, (∀ x s, RuleFrame s (f x s).1) → Act.each f l s = (s', .ok ()) →
      (KN K s ∧ s.dp.entry? K = n.dp.entry? K) → KN K s' ∧ s'.dp.entry? K = n.dp.entry? K := by
    intro α f l s s' hf he hk
    refine pres_each_ok (I := fun s => KN K s ∧ s.dp.entry? K = n.dp.entry? K) (fun x _ => pres_of fun t ht => ?_) he hk
    have := hf x t
    exact ⟨⟨by rw [this.rm]; exact ht.1.free, by rw [this.cache]; exact ht.1.cache⟩, by rw [this.entry]; exact ht.2⟩
  have k3 := fr createUrr_rf e3 (fr createQer_rf e2 (fr createFar_rf e1 k0))
  exact ⟨seid, s3, hs', h1, e4, k3.1, k3.2, h3, h4⟩

/-- One PDR with a filter. -/
theorem establish_filter {n : Node} {addr : Addr} {r : EstReq} {n' : Node} {resp : Resp}
    (hstep : n.step (.establish addr r) = (n', .reply resp)) (hacc : resp.cause = 1) {pie : PdrIE} {text : List Char} {K : PdrKey} (hK : K ≠ .ul 0)
    (ha : AsksFilter r pie text K) (hfree : ¬ K.freeIn n.rm) (hent : n.dp.entry? K = none) :
    ∃ seid sess p, resp.fseid = some seid ∧ n'.session? addr seid = some sess ∧ PdrGiven pie sess p ∧
      n'.dp.entry? K = some (pdrToStore none p.info) := by
  obtain ⟨seid, s, s', h1, h2, h3, h4, h5, h6⟩ := establish_creates hstep hacc hfree
  obtain ⟨l1, l2, hr, hn⟩ := ha.pdr
  have hnd := ha.ids
  rw [hr] at h2 hnd
  obtain ⟨t1, f1, f2⟩ := each_append_ok l1 h2
  obtain ⟨t2, f3, f4⟩ := each_cons_ok f2
  rw [List.map_append] at hnd
  obtain ⟨p, hg, he⟩ := create_on ha.key (List.nodup_append.1 hnd).2.1 f3 f4
  have k1 := kn_creates l1 h3 f1
  rw [creates_keep hK (fun x hx => hn x (List.mem_append_left _ hx)) h3 f1, h4, hent] at he
  refine ⟨seid, s'.sess, p, h1, h5, hg, ?_⟩
  rw [h6, creates_keep hK (fun x hx => hn x (List.mem_append_right _ hx)) (kn_create k1 f3) f4, he]

/-- Two PDRs for the same key. -/
theorem establish_two {n : Node} {addr : Addr} {r : EstReq} {n' : Node} {resp : Resp}
    (hstep : n.step (.establish addr r) = (n', .reply resp)) (hacc : resp.cause = 1) {one two : PdrIE} {K : PdrKey} (hK : K ≠ .ul 0)
    (ha : AsksTwo r one two K) (hfree : ¬ K.freeIn n.rm) (hent : n.dp.entry? K = none) :
    ∃ seid sess p1 p2, resp.fseid = some seid ∧ n'.session? addr seid = some sess ∧ PdrGiven one sess p1 ∧ PdrGiven two sess p2 ∧
      n'.dp.entry? K = some (pdrToStore (some (pdrToStore none p1.info)) p2.info) := by
  obtain ⟨seid, s, s', h1, h2, h3, h4, h5, h6⟩ := establish_creates hstep hacc hfree
  obtain ⟨l1, l2, l3, hr, hn⟩ := ha.pdr
  have hnd := ha.ids
  rw [hr] at h2 hnd
  obtain ⟨t1, f1, f2⟩ := each_append_ok l1 h2
  obtain ⟨t2, f3, f4⟩ := each_cons_ok f2
  obtain ⟨t3, f5, f6⟩ := each_append_ok l2 f4
  obtain ⟨t4, f7, f8⟩ := each_cons_ok f6
  rw [List.map_append] at hnd
  have hnd1 := (List.nodup_append.1 hnd).2.1
  have hnd2 : ((two :: l3).map (·.pdrId)).Nodup := by
    rw [List.map_cons, List.nodup_cons, List.map_append] at hnd1
    exact (List.nodup_append.1 hnd1.2).2.1
  obtain ⟨p1, hg1, he1⟩ := create_on ha.key1 hnd1 f3 f4
  obtain ⟨p2, hg2, he2⟩ := create_on ha.key2 hnd2 f7 f8
  have k1 := kn_creates l1 h3 f1
  have k2 := kn_create k1 f3
  have k3 := kn_creates l2 k2 f5
  rw [creates_keep hK (fun x hx => hn x (by simp [hx])) h3 f1, h4, hent] at he1
  rw [creates_keep hK (fun x hx => hn x (by simp [hx])) k2 f5, he1] at he2
  refine ⟨seid, s'.sess, p1, p2, h1, h5, hg1, hg2, ?_⟩
  rw [h6, creates_keep hK (fun x hx => hn x (by simp [hx])) (kn_create k3 f7) f8, he2]

/-- The entry right after an establishment stays, whatever happens elsewhere. -/
theorem entry_after {cfg : NodeCfg} {rm : Option ResourceManager} {p f q u : U32} {h1 : List (Ev × Outcome)} {n1 : Node}
    (H1 : HistP (fun n e => e.refsKnown n) (Node.init cfg rm (BpfObjects.load p f q u)) h1 n1)
    {a : Addr} {r : EstReq} {n2 : Node} {resp : Resp} (hstep : n1.step (.establish a r) = (n2, .reply resp))
    {K : PdrKey} (hK : K ≠ .ul 0) (hused : ¬ n1.used K) {seid : U64} (hs1 : resp.fseid = some seid) {sess : Session} (hs2 : n2.session? a seid = some sess)
    {h2 : List (Ev × Outcome)} {n3 : Node} (H2 : HistP (Elsewhere a seid K) n2 h2 n3)
    (hb : attempts h2 + attempts h1 + 1 < 2 ^ 64 - 2) : n3.dp.entry? K = n2.dp.entry? K := by
  have Hs : HistP (fun n e => e.refsKnown n) (Node.init cfg rm (BpfObjects.load p f q u)) ((.establish a r, .reply resp) :: h1) n2 := by
    have := HistP.step (.establish a r) H1 trivial (by rw [hstep]; simp)
    rwa [hstep] at this
  have hb' : attempts (h2 ++ (Ev.establish a r, Outcome.reply resp) :: h1) < 2 ^ 64 - 2 := by
    rw [attempts_append]
    have : attempts ((Ev.establish a r, Outcome.reply resp) :: h1) = attempts h1 + 1 := by simp [attempts]
    omega
  exact (C64_history_partial Hs hs2 hK (establish_usedElsewhere hstep hs1 hused) H2 hb').1

/-! ### flows -/

theorem octets_be32 (f : List U8) (i : Nat) : ip4Octets (be32 f i) = [oct f i, oct f (i + 1), oct f (i + 2), oct f (i + 3)] := by
  have key : ∀ a b c d : U8, ip4Octets (a ++ b ++ c ++ d) = [a, b, c, d] := by
    intro a b c d
    unfold ip4Octets
    have app : ∀ (w v : Nat) (x : BitVec w) (y : BitVec v) (i : Nat), (x ++ y).getLsbD i = if i < v then y.getLsbD i else x.getLsbD (i - v) :=
      fun w v x y i => BitVec.getLsbD_append
    have e0 : BitVec.extractLsb' 24 8 (a ++ b ++ c ++ d) = a := by
      apply BitVec.eq_of_getLsbD_eq; intro j hj
      rw [BitVec.getLsbD_extractLsb', decide_eq_true hj, Bool.true_and]
      rw [app _ _ _ d, if_neg (by omega), app _ _ _ c, if_neg (by omega), app _ _ _ b, if_neg (by omega)]
      congr 1; omega
    have e1 : BitVec.extractLsb' 16 8 (a ++ b ++ c ++ d) = b := by
      apply BitVec.eq_of_getLsbD_eq; intro j hj
      rw [BitVec.getLsbD_extractLsb', decide_eq_true hj, Bool.true_and]
      rw [app _ _ _ d, if_neg (by omega), app _ _ _ c, if_neg (by omega), app _ _ _ b, if_pos (by omega)]
      congr 1; omega
    have e2 : BitVec.extractLsb' 8 8 (a ++ b ++ c ++ d) = c := by
      apply BitVec.eq_of_getLsbD_eq; intro j hj
      rw [BitVec.getLsbD_extractLsb', decide_eq_true hj, Bool.true_and]
      rw [app _ _ _ d, if_neg (by omega), app _ _ _ c, if_pos (by omega)]
      congr 1; omega
    have e3 : BitVec.extractLsb' 0 8 (a ++ b ++ c ++ d) = d := by
      apply BitVec.eq_of_getLsbD_eq; intro j hj
      rw [BitVec.getLsbD_extractLsb', decide_eq_true hj, Bool.true_and]
      rw [app _ _ _ d, if_pos (by omega)]
      congr 1; omega
    rw [e0, e1, e2, e3]
  exact key _ _ _ _

theorem carries_ports {f : List U8} {o : Nat} {proto : U8} {src dst : List U8} {sp dp : U16} (h : Carries4 f o proto src dst sp dp) :
    l4Ports f (ip4End f o) (oct f (o + 9)) = some (sp, dp) := by
  rw [h.hproto]
  unfold l4Ports
  rcases h.ports with ⟨h1, h2, h3, h4⟩ | ⟨h1, h2, h3, h4⟩ | ⟨h1, h2, h3, h4⟩
  · subst h1; rw [if_pos rfl, if_pos h2, h3, h4]
  · subst h1; rw [if_neg (by decide), if_pos rfl, if_pos h2, h3, h4]
  · rw [if_neg h1, if_neg h2, h3, h4]

theorem carries_down {f : List U8} {proto : U8} {src dst : List U8} {sp dp : U16} (h : Carries4 f 14 proto src dst sp dp) :
    ∃ a b, downFlow4 f = .v4 proto a b sp dp ∧ ip4Octets a = src ∧ ip4Octets b = dst := by
  refine ⟨be32 f 26, be32 f 30, ?_, by rw [octets_be32, h.hsrc], by rw [octets_be32, h.hdst]⟩
  unfold downFlow4
  have := carries_ports h
  rw [show l4Off f = ip4End f 14 from rfl, this]
  show Flow.v4 (oct f 23) (be32 f 26) (be32 f 30) sp dp = _
  rw [show oct f 23 = proto from h.hproto]

theorem carries_inner {f : List U8} {o : Nat} (ho : innerOff f = o) (h4 : (oct f o).toNat / 16 = 4) (hl : o + 20 ≤ f.length)
    {proto : U8} {src dst : List U8} {sp dp : U16} (h : Carries4 f o proto src dst sp dp) :
    ∃ a b, innerFlow f = some (.v4 proto a b sp dp) ∧ ip4Octets a = src ∧ ip4Octets b = dst := by
  refine ⟨be32 f (o + 12), be32 f (o + 16), ?_, by rw [octets_be32, h.hsrc], by rw [octets_be32, h.hdst]⟩
  unfold innerFlow
  rw [ho, if_neg (by omega), if_pos h4, if_neg (by omega), carries_ports h]
  show some (Flow.v4 (oct f (o + 9)) (be32 f (o + 12)) (be32 f (o + 16)) sp dp) = _
  rw [h.hproto]

theorem text_parses {text : List Char} {rule : SdfRule} (h : FilterText4 text rule) {pie : PdrIE} (hs : pie.sdf = some text) {sess : Session} {p : SPdr}
    (hg : PdrGiven pie sess p) : ∃ flt, p.info.sdf = some flt ∧ ∀ (pr : U8) (a b : Ip4) (sp dp : U16),
      (Flow.v4 pr a b sp dp).sat (toKFilter flt) = true ↔ rule.Covers pr (ip4Octets a) (ip4Octets b) sp dp := by
  obtain ⟨flt, hf, -⟩ := C21_complete h.parses
  refine ⟨flt, ?_, fun pr a b sp dp => C23_ipv4_partial h.parses hf h.src h.dst h.proto pr a b sp dp⟩
  cases text with
  | nil => revert hf; rw [show parse [] = none by decide +kernel]; intro hf; cases hf
  | cons c cs =>
    obtain ⟨g, g1, g2⟩ := hg.sdf c cs hs
    rw [hf] at g1; cases g1; exact g2

/-! ### C91 -/

/-- **C91, downlink, one PDR with a filter.** An accepted establishment has one PDR for the UE address `ip`, with a filter text that means
`rule`. No message gave `ip` before. Then after every later history elsewhere, a frame to `ip` that the text covers is sent in exactly the
tunnel asked for, and any other frame to `ip` goes to the host, unchanged. -/
theorem C91_downlink {cfg : NodeCfg} {rm : Option ResourceManager} {p f q u : U32} {h1 : List (Ev × Outcome)} {n1 : Node} {ip : Ip4}
    (H1 : HistP (NeverGiven (.dl4 ip)) (Node.init cfg rm (BpfObjects.load p f q u)) h1 n1) (hfree : ip ∉ freeIps n1.rm)
    {a : Addr} {r : EstReq} {n2 : Node} {resp : Resp} (hstep : n1.step (.establish a r) = (n2, .reply resp)) (hacc : resp.cause = 1)
    {pie : PdrIE} {text : List Char} {rule : SdfRule} (hask : AsksFilter r pie text (.dl4 ip)) (htext : FilterText4 text rule)
    {fie : FarIE} {qie : QerIE} (hrules : HasRules r pie fie qie) {peer : Ip4} {teid : U32} {tos : U8} (hfar : fie.intoTunnel peer teid tos)
    (hgate : qie.gateDL.getD 0 = 0) (hmbr : qie.mbrDL.getD 0 = 0)
    {seid : U64} (hse : resp.fseid = some seid) {h2 : List (Ev × Outcome)} {n3 : Node} (H2 : HistP (Elsewhere a seid (.dl4 ip)) n2 h2 n3)
    (hb : attempts h2 + attempts h1 + 1 < 2 ^ 64 - 2)
    (e : Env) (s : PS) (hdp : s.dp = n3.dp) (hd : IsDown4 e s.frame) (hip : be32 s.frame 30 = ip) (hroom : e.headroom ≠ none)
    {proto : U8} {src dst : List U8} {sport dport : U16} (hc : Carries4 s.frame 14 proto src dst sport dport) :
    (rule.Covers proto src dst sport dport → ∃ s' fib, runPacket e s = (s', .ok (routeAct e (e.fib fib))) ∧ fib.dst = slice s'.frame 30 4 ∧
      IsTunnelled ⟨e.n3Ip, peer, tos, qie.qfi.getD 0, teid⟩ (be16 s.frame 16) (s.frame.drop 14) s'.frame) ∧
    (¬ rule.Covers proto src dst sport dport → ∃ s', runPacket e s = (s', .ok .pass) ∧ s'.frame = s.frame ∧ s'.dp = s.dp) := by
  obtain ⟨hno, hused⟩ := never_given (by simp) H1
  have H1' := H1.mono (Q := fun n e => e.refsKnown n) fun _ _ h => h.known
  obtain ⟨seid', sess, pr, hs1, hs2, hg, hent⟩ := establish_filter hstep hacc (by simp) hask hfree hno
  have : seid' = seid := Option.some.inj (hs1.symm.trans hse)
  subst this
  obtain ⟨flt, hflt, hcov⟩ := text_parses htext hask.filter hg
  obtain ⟨x, y, hfl, hx, hy⟩ := carries_down hc
  have hiff := hcov proto x y sport dport
  rw [hx, hy, ← hfl] at hiff
  constructor
  · intro hcv
    refine downlink_served hfar hgate hmbr (rule_after_on H1' hstep hacc (by simp) hused hrules.far hrules.qer hs1 hs2 hg
      (G := fun m => m (toKFilter flt) = true) ?_ H2 hb) e s hdp hd hip (hiff.2 hcv) hroom
    intro m hm
    rw [hent, classify_store, hflt]; simp [hm]
  · intro hcv
    refine C25_unclassified_untouched e s (.down4 hd ?_)
    have hk := entry_after H1' hstep (K := .dl4 ip) (by simp) hused hs1 hs2 H2 hb
    unfold dlRule4
    rw [hdp, hip, show n3.dp.pdrDl4.lookup ip = n3.dp.entry? (.dl4 ip) from rfl, hk, hent, classify_store, hflt]
    have : (downFlow4 s.frame).sat (toKFilter flt) = false := by
      rw [← Bool.not_eq_true, hiff]; exact hcv
    simp [this]

/-- the rule of the first of two PDRs, if it has no filter -/
theorem two_default {p1 p2 : PdrInfo} {flt : SdfFilter} (h1 : p1.sdf = none) (h2 : p2.sdf = some flt) (m : KFilter → Bool) :
    classify (some (pdrToStore (some (pdrToStore none p1)) p2)) m = some (if m (toKFilter flt) then p2.rule else p1.rule) := by
  rw [classify_store, h2]
  simp only []
  split
  · rfl
  · unfold pdrToStore
    rw [h1]; rfl

/-- … and if it has one -/
theorem two_filters {p1 p2 : PdrInfo} {f1 f2 : SdfFilter} (h1 : p1.sdf = some f1) (h2 : p2.sdf = some f2) (m : KFilter → Bool) :
    classify (some (pdrToStore (some (pdrToStore none p1)) p2)) m = some (if m (toKFilter f2) then p2.rule else ⟨0, 0, 0⟩) := by
  rw [classify_store, h2]
  simp only []
  split
  · rfl
  · unfold pdrToStore
    rw [h1]; rfl

/-- **C91, downlink, a PDR without filter and after it one with a filter** (for requests with the IEs in this order; in the other order:
`C91_default_last`). Frames to the UE address that the text covers are sent in the tunnel of the second, all others in that of the first. -/
theorem C91_downlink_default_partial {cfg : NodeCfg} {rm : Option ResourceManager} {p f q u : U32} {h1 : List (Ev × Outcome)} {n1 : Node} {ip : Ip4}
    (H1 : HistP (NeverGiven (.dl4 ip)) (Node.init cfg rm (BpfObjects.load p f q u)) h1 n1) (hfree : ip ∉ freeIps n1.rm)
    {a : Addr} {r : EstReq} {n2 : Node} {resp : Resp} (hstep : n1.step (.establish a r) = (n2, .reply resp)) (hacc : resp.cause = 1)
    {one two : PdrIE} {text : List Char} {rule : SdfRule} (hask : AsksTwo r one two (.dl4 ip)) (hdef : one.sdf = none)
    (hflt : two.sdf = some text) (htext : FilterText4 text rule)
    {fie1 fie2 : FarIE} {qie1 qie2 : QerIE} (hr1 : HasRules r one fie1 qie1) (hr2 : HasRules r two fie2 qie2)
    {peer1 peer2 : Ip4} {teid1 teid2 : U32} {tos1 tos2 : U8} (hf1 : fie1.intoTunnel peer1 teid1 tos1) (hf2 : fie2.intoTunnel peer2 teid2 tos2)
    (hg1 : qie1.gateDL.getD 0 = 0) (hm1 : qie1.mbrDL.getD 0 = 0) (hg2 : qie2.gateDL.getD 0 = 0) (hm2 : qie2.mbrDL.getD 0 = 0)
    {seid : U64} (hse : resp.fseid = some seid) {h2 : List (Ev × Outcome)} {n3 : Node} (H2 : HistP (Elsewhere a seid (.dl4 ip)) n2 h2 n3)
    (hb : attempts h2 + attempts h1 + 1 < 2 ^ 64 - 2)
    (e : Env) (s : PS) (hdp : s.dp = n3.dp) (hd : IsDown4 e s.frame) (hip : be32 s.frame 30 = ip) (hroom : e.headroom ≠ none)
    {proto : U8} {src dst : List U8} {sport dport : U16} (hc : Carries4 s.frame 14 proto src dst sport dport) :
    (rule.Covers proto src dst sport dport → ∃ s' fib, runPacket e s = (s', .ok (routeAct e (e.fib fib))) ∧ fib.dst = slice s'.frame 30 4 ∧
      IsTunnelled ⟨e.n3Ip, peer2, tos2, qie2.qfi.getD 0, teid2⟩ (be16 s.frame 16) (s.frame.drop 14) s'.frame) ∧
    (¬ rule.Covers proto src dst sport dport → ∃ s' fib, runPacket e s = (s', .ok (routeAct e (e.fib fib))) ∧ fib.dst = slice s'.frame 30 4 ∧
      IsTunnelled ⟨e.n3Ip, peer1, tos1, qie1.qfi.getD 0, teid1⟩ (be16 s.frame 16) (s.frame.drop 14) s'.frame) := by
  obtain ⟨hno, hused⟩ := never_given (by simp) H1
  have H1' := H1.mono (Q := fun n e => e.refsKnown n) fun _ _ h => h.known
  obtain ⟨seid', sess, p1, p2, hs1, hs2, g1, g2, hent⟩ := establish_two hstep hacc (by simp) hask hfree hno
  have : seid' = seid := Option.some.inj (hs1.symm.trans hse)
  subst this
  obtain ⟨flt, hf, hcov⟩ := text_parses htext hflt g2
  obtain ⟨x, y, hfl, hx, hy⟩ := carries_down hc
  have hiff := hcov proto x y sport dport
  rw [hx, hy, ← hfl] at hiff
  have hcl := two_default (g1.noSdf (.inl hdef)) hf
  constructor
  · intro hcv
    refine downlink_served hf2 hg2 hm2 (rule_after_on H1' hstep hacc (by simp) hused hr2.far hr2.qer hs1 hs2 g2
      (G := fun m => m (toKFilter flt) = true) ?_ H2 hb) e s hdp hd hip (hiff.2 hcv) hroom
    intro m hm
    rw [hent, hcl, if_pos hm]
  · intro hcv
    refine downlink_served hf1 hg1 hm1 (rule_after_on H1' hstep hacc (by simp) hused hr1.far hr1.qer hs1 hs2 g1
      (G := fun m => ¬ m (toKFilter flt) = true) ?_ H2 hb) e s hdp hd hip (fun h => hcv (hiff.1 h)) hroom
    intro m hm
    rw [hent, hcl, if_neg hm]

/-- **C91 fails: a PDR with a filter and after it one without.** Whatever the filter, every frame to the UE address is sent in the tunnel
of the second: the first has no effect. (The request says the same as in `C91_downlink_default_partial`, except for the order of the IEs.) -/
theorem C91_default_last {cfg : NodeCfg} {rm : Option ResourceManager} {p f q u : U32} {h1 : List (Ev × Outcome)} {n1 : Node} {ip : Ip4}
    (H1 : HistP (NeverGiven (.dl4 ip)) (Node.init cfg rm (BpfObjects.load p f q u)) h1 n1) (hfree : ip ∉ freeIps n1.rm)
    {a : Addr} {r : EstReq} {n2 : Node} {resp : Resp} (hstep : n1.step (.establish a r) = (n2, .reply resp)) (hacc : resp.cause = 1)
    {one two : PdrIE} (hask : AsksTwo r one two (.dl4 ip)) (hdef : two.sdf = none) {fie2 : FarIE} {qie2 : QerIE} (hr2 : HasRules r two fie2 qie2)
    {peer2 : Ip4} {teid2 : U32} {tos2 : U8} (hf2 : fie2.intoTunnel peer2 teid2 tos2) (hg2 : qie2.gateDL.getD 0 = 0) (hm2 : qie2.mbrDL.getD 0 = 0)
    {seid : U64} (hse : resp.fseid = some seid) {h2 : List (Ev × Outcome)} {n3 : Node} (H2 : HistP (Elsewhere a seid (.dl4 ip)) n2 h2 n3)
    (hb : attempts h2 + attempts h1 + 1 < 2 ^ 64 - 2)
    (e : Env) (s : PS) (hdp : s.dp = n3.dp) (hd : IsDown4 e s.frame) (hip : be32 s.frame 30 = ip) (hroom : e.headroom ≠ none) :
    ∃ s' fib, runPacket e s = (s', .ok (routeAct e (e.fib fib))) ∧ fib.dst = slice s'.frame 30 4 ∧
      IsTunnelled ⟨e.n3Ip, peer2, tos2, qie2.qfi.getD 0, teid2⟩ (be16 s.frame 16) (s.frame.drop 14) s'.frame := by
  obtain ⟨hno, hused⟩ := never_given (by simp) H1
  have H1' := H1.mono (Q := fun n e => e.refsKnown n) fun _ _ h => h.known
  obtain ⟨seid', sess, p1, p2, hs1, hs2, g1, g2, hent⟩ := establish_two hstep hacc (by simp) hask hfree hno
  have : seid' = seid := Option.some.inj (hs1.symm.trans hse)
  subst this
  refine downlink_served hf2 hg2 hm2 (rule_after_on H1' hstep hacc (by simp) hused hr2.far hr2.qer hs1 hs2 g2
    (G := fun _ => True) ?_ H2 hb) e s hdp hd hip trivial hroom
  intro m _
  rw [hent, classify_store, g2.noSdf (.inl hdef)]

/-- **C91 fails: two PDRs with filters.** A frame to the UE address that the second text does not cover gets FAR slot 0 and QER slot 0,
whatever the first text says and whoever these belong to. -/
theorem C91_two_filters {cfg : NodeCfg} {rm : Option ResourceManager} {p f q u : U32} {h1 : List (Ev × Outcome)} {n1 : Node} {ip : Ip4}
    (H1 : HistP (NeverGiven (.dl4 ip)) (Node.init cfg rm (BpfObjects.load p f q u)) h1 n1) (hfree : ip ∉ freeIps n1.rm)
    {a : Addr} {r : EstReq} {n2 : Node} {resp : Resp} (hstep : n1.step (.establish a r) = (n2, .reply resp)) (hacc : resp.cause = 1)
    {one two : PdrIE} {text1 text2 : List Char} {rule1 rule2 : SdfRule} (hask : AsksTwo r one two (.dl4 ip))
    (hflt1 : one.sdf = some text1) (htext1 : FilterText4 text1 rule1) (hflt2 : two.sdf = some text2) (htext2 : FilterText4 text2 rule2)
    {seid : U64} (hse : resp.fseid = some seid) {h2 : List (Ev × Outcome)} {n3 : Node} (H2 : HistP (Elsewhere a seid (.dl4 ip)) n2 h2 n3)
    (hb : attempts h2 + attempts h1 + 1 < 2 ^ 64 - 2) (fr : List U8) (hip : be32 fr 30 = ip)
    {proto : U8} {src dst : List U8} {sport dport : U16} (hc : Carries4 fr 14 proto src dst sport dport)
    (hcv : ¬ rule2.Covers proto src dst sport dport) : dlRule4 n3.dp fr = some ⟨0, 0, 0⟩ := by
  obtain ⟨hno, hused⟩ := never_given (by simp) H1
  have H1' := H1.mono (Q := fun n e => e.refsKnown n) fun _ _ h => h.known
  obtain ⟨seid', sess, p1, p2, hs1, hs2, g1, g2, hent⟩ := establish_two hstep hacc (by simp) hask hfree hno
  have : seid' = seid := Option.some.inj (hs1.symm.trans hse)
  subst this
  obtain ⟨flt1, hf1, -⟩ := text_parses htext1 hflt1 g1
  obtain ⟨flt2, hf2, hcov⟩ := text_parses htext2 hflt2 g2
  obtain ⟨x, y, hfl, hx, hy⟩ := carries_down hc
  have hiff := hcov proto x y sport dport
  rw [hx, hy, ← hfl] at hiff
  have hk := entry_after H1' hstep (K := .dl4 ip) (by simp) hused hs1 hs2 H2 hb
  unfold dlRule4
  rw [hip, show n3.dp.pdrDl4.lookup ip = n3.dp.entry? (.dl4 ip) from rfl, hk, hent, two_filters hf1 hf2, if_neg (fun h => hcv (hiff.1 h))]

/-! uplink -/

theorem ul_rule {b : BpfObjects} {t : U32} {en : PdrEntry} (he : b.entry? (.ul t) = some en) {f : List U8} (ht : gtpTeid f = t) {fl : Flow}
    (hfl : innerFlow f = some fl) : ulRule b f = classify (some en) fl.sat := by
  have he : b.pdrUl.lookup t = some en := he
  unfold ulRule
  rw [ht, he]
  simp only []
  split
  · rename_i h0; simp [classify, h0]
  · rw [hfl]; rfl

theorem up4_served {pie : PdrIE} {fie : FarIE} {qie : QerIE} {t : U32} (hohr : pie.ohr.getD 0 = 0)
    (hfar : fie.plain) (hgate : qie.gateUL.getD 0 = 0) (hmbr : qie.mbrUL.getD 0 = 0) {n3 : Node} {G : (KFilter → Bool) → Prop}
    (hrule : ∃ rr far qi k, rr.ohr = pie.ohr.getD 0 ∧ (∀ m, G m → classify (n3.dp.entry? (.ul t)) m = some rr) ∧
      n3.dp.far.lookup rr.far = some far ∧ FarMerged {} fie far ∧
      n3.dp.qer.lookup rr.qer = some k ∧ QerMerged {} qie qi ∧
      k.gateUL = qi.gateUL ∧ k.gateDL = qi.gateDL ∧ k.qfi = qi.qfi ∧ k.mbrUL = qi.mbrUL ∧ k.mbrDL = qi.mbrDL)
    (e : Env) (s : PS) (hdp : s.dp = n3.dp) {o : Nat} (hup : UplinkIp4 e s.frame t o)
    {fl : Flow} (hfl : innerFlow s.frame = some fl) (hfit : G fl.sat) :
    ∃ s' fib m, runPacket e s = (s', .ok (routeAct e (e.fib fib))) ∧ m.length = 12 ∧
      s'.frame = m ++ [8, 0] ++ s.frame.drop o ∧
      fib.dst = [oct s.frame (o + 16), oct s.frame (o + 17), oct s.frame (o + 18), oct s.frame (o + 19)] := by
  have h4 := hup.version
  have hl := hup.len
  obtain ⟨s', fib, m, ty, w1, w2, w3, w4, w5⟩ := uplink_served hohr hfar hgate hmbr hrule e s hdp hup.gpdu hup.teid hfl hfit hup.noOptions hup.payload
    hup.header (.inl ⟨h4, hl⟩) (fun h => hup.notUs ⟨h.2.1, h.2.2⟩)
  refine ⟨s', fib, m, w1, w2, ?_, ?_⟩
  · rw [w4]
    unfold etherTypeOf at w3
    rw [oct_drop, Nat.add_zero, if_pos h4] at w3
    cases w3; rfl
  · rw [w5, if_pos h4]
    rw [slice_four (Nat.le_refl 4) (by omega)]
    simp [slice]

/-- **C91, uplink, one PDR with a filter** (for G-PDUs as in C66, with an IPv4 packet inside). An accepted establishment has one PDR for the TEID `t`, with a
filter text that means `rule`; `t` was never given before. Then after every later history elsewhere, a G-PDU with TEID `t` is decapsulated
and forwarded if the text covers its payload, source against source and destination against destination; any other goes to the host,
unchanged. -/
theorem C91_uplink_partial {cfg : NodeCfg} {rm : Option ResourceManager} {p f q u : U32} {h1 : List (Ev × Outcome)} {n1 : Node} {t : U32} (ht : t ≠ 0)
    (H1 : HistP (NeverGiven (.ul t)) (Node.init cfg rm (BpfObjects.load p f q u)) h1 n1) (hfree : t ∉ freeTeids n1.rm)
    {a : Addr} {r : EstReq} {n2 : Node} {resp : Resp} (hstep : n1.step (.establish a r) = (n2, .reply resp)) (hacc : resp.cause = 1)
    {pie : PdrIE} {text : List Char} {rule : SdfRule} (hask : AsksFilter r pie text (.ul t)) (htext : FilterText4 text rule) (hohr : pie.ohr.getD 0 = 0)
    {fie : FarIE} {qie : QerIE} (hrules : HasRules r pie fie qie) (hfar : fie.plain)
    (hgate : qie.gateUL.getD 0 = 0) (hmbr : qie.mbrUL.getD 0 = 0)
    {seid : U64} (hse : resp.fseid = some seid) {h2 : List (Ev × Outcome)} {n3 : Node} (H2 : HistP (Elsewhere a seid (.ul t)) n2 h2 n3)
    (hb : attempts h2 + attempts h1 + 1 < 2 ^ 64 - 2)
    (e : Env) (s : PS) (hdp : s.dp = n3.dp) {o : Nat} (hup : UplinkIp4 e s.frame t o)
    {proto : U8} {src dst : List U8} {sport dport : U16} (hc : Carries4 s.frame o proto src dst sport dport) :
    (rule.Covers proto src dst sport dport → ∃ s' fib m, runPacket e s = (s', .ok (routeAct e (e.fib fib))) ∧ m.length = 12 ∧
      s'.frame = m ++ [8, 0] ++ s.frame.drop o ∧ fib.dst = dst) ∧
    (¬ rule.Covers proto src dst sport dport → ∃ s', runPacket e s = (s', .ok .pass) ∧ s'.frame = s.frame ∧ s'.dp = s.dp) := by
  have hK : PdrKey.ul t ≠ .ul 0 := by simpa using ht
  obtain ⟨hno, hused⟩ := never_given hK H1
  have H1' := H1.mono (Q := fun n e => e.refsKnown n) fun _ _ h => h.known
  obtain ⟨seid', sess, pr, hs1, hs2, hg, hent⟩ := establish_filter hstep hacc hK hask hfree hno
  have : seid' = seid := Option.some.inj (hs1.symm.trans hse)
  subst this
  obtain ⟨flt, hflt, hcov⟩ := text_parses htext hask.filter hg
  obtain ⟨x, y, hfl, hx, hy⟩ := carries_inner (payload_innerOff hup.payload hup.header) hup.version hup.len hc
  have hiff := hcov proto x y sport dport
  rw [hx, hy] at hiff
  constructor
  · intro hcv
    obtain ⟨s', fib, m, w1, w2, w3, w4⟩ := up4_served hohr hfar hgate hmbr (rule_after_on H1' hstep hacc hK hused hrules.far hrules.qer hs1 hs2 hg
      (G := fun m => m (toKFilter flt) = true) (by intro m hm; rw [hent, classify_store, hflt]; simp [hm]) H2 hb) e s hdp hup hfl (hiff.2 hcv)
    exact ⟨s', fib, m, w1, w2, w3, w4.trans hc.hdst.symm⟩
  · intro hcv
    refine C25_unclassified_untouched e s (.gpdu hup.gpdu ?_)
    have hk := entry_after H1' hstep (K := .ul t) hK hused hs1 hs2 H2 hb
    rw [ul_rule (by rw [hdp, hk, hent]) hup.teid hfl, classify_store, hflt]
    have : (Flow.v4 proto x y sport dport).sat (toKFilter flt) = false := by
      rw [← Bool.not_eq_true, hiff]; exact hcv
    simp [this]

/-- **C91, uplink, a PDR without filter and after it one with a filter** (for G-PDUs as above). G-PDUs whose payload the text covers are
handled as the second says: here dropped; all others as the first: here decapsulated and forwarded. -/
theorem C91_uplink_default_partial {cfg : NodeCfg} {rm : Option ResourceManager} {p f q u : U32} {h1 : List (Ev × Outcome)} {n1 : Node} {t : U32} (ht : t ≠ 0)
    (H1 : HistP (NeverGiven (.ul t)) (Node.init cfg rm (BpfObjects.load p f q u)) h1 n1) (hfree : t ∉ freeTeids n1.rm)
    {a : Addr} {r : EstReq} {n2 : Node} {resp : Resp} (hstep : n1.step (.establish a r) = (n2, .reply resp)) (hacc : resp.cause = 1)
    {one two : PdrIE} {text : List Char} {rule : SdfRule} (hask : AsksTwo r one two (.ul t)) (hdef : one.sdf = none)
    (hflt : two.sdf = some text) (htext : FilterText4 text rule)
    {fie1 fie2 : FarIE} {qie1 qie2 : QerIE} (hr1 : HasRules r one fie1 qie1) (hr2 : HasRules r two fie2 qie2) (hohr : one.ohr.getD 0 = 0)
    (hf1 : fie1.plain) (hf2 : ∃ x xs, fie2.applyAction = some (x :: xs) ∧ x.getLsbD 1 = false)
    (hg1 : qie1.gateUL.getD 0 = 0) (hm1 : qie1.mbrUL.getD 0 = 0)
    {seid : U64} (hse : resp.fseid = some seid) {h2 : List (Ev × Outcome)} {n3 : Node} (H2 : HistP (Elsewhere a seid (.ul t)) n2 h2 n3)
    (hb : attempts h2 + attempts h1 + 1 < 2 ^ 64 - 2)
    (e : Env) (s : PS) (hdp : s.dp = n3.dp) {o : Nat} (hup : UplinkIp4 e s.frame t o)
    {proto : U8} {src dst : List U8} {sport dport : U16} (hc : Carries4 s.frame o proto src dst sport dport) :
    (rule.Covers proto src dst sport dport → ∃ s', runPacket e s = (s', .ok .drop)) ∧
    (¬ rule.Covers proto src dst sport dport → ∃ s' fib m, runPacket e s = (s', .ok (routeAct e (e.fib fib))) ∧ m.length = 12 ∧
      s'.frame = m ++ [8, 0] ++ s.frame.drop o ∧ fib.dst = dst) := by
  have hK : PdrKey.ul t ≠ .ul 0 := by simpa using ht
  obtain ⟨hno, hused⟩ := never_given hK H1
  have H1' := H1.mono (Q := fun n e => e.refsKnown n) fun _ _ h => h.known
  obtain ⟨seid', sess, p1, p2, hs1, hs2, g1, g2, hent⟩ := establish_two hstep hacc hK hask hfree hno
  have : seid' = seid := Option.some.inj (hs1.symm.trans hse)
  subst this
  obtain ⟨flt, hf, hcov⟩ := text_parses htext hflt g2
  obtain ⟨x, y, hfl, hx, hy⟩ := carries_inner (payload_innerOff hup.payload hup.header) hup.version hup.len hc
  have hiff := hcov proto x y sport dport
  rw [hx, hy] at hiff
  have hcl := two_default (g1.noSdf (.inl hdef)) hf
  constructor
  · intro hcv
    obtain ⟨rr, far, qi, k, r1, r2, r3, r4, -⟩ := rule_after_on H1' hstep hacc hK hused hr2.far hr2.qer hs1 hs2 g2
      (G := fun m => m (toKFilter flt) = true) (by intro m hm; rw [hent, hcl, if_pos hm]) H2 hb
    obtain ⟨c, cs, f1, f2⟩ := hf2
    have hk := entry_after H1' hstep (K := .ul t) hK hused hs1 hs2 H2 hb
    have hr : ulRule s.dp s.frame = some rr := by
      rw [ul_rule (by rw [hdp, hk, hent]) hup.teid hfl, ← r2 _ (hiff.2 hcv), hk, hent]
    obtain ⟨s', w1, -⟩ := C26_not_permitted_dropped e s rr (.inl ⟨hup.gpdu, hr, by
      rintro ⟨far', qer', pp⟩
      have h1 := pp.hasFar
      rw [hdp, r3] at h1
      have h2 := pp.forw
      rw [← Option.some.inj h1, r4.action.1 c cs f1, f2] at h2
      cases h2⟩)
    exact ⟨s', w1⟩
  · intro hcv
    obtain ⟨s', fib, m, w1, w2, w3, w4⟩ := up4_served hohr hf1 hg1 hm1 (rule_after_on H1' hstep hacc hK hused hr1.far hr1.qer hs1 hs2 g1
      (G := fun m => ¬ m (toKFilter flt) = true) (by intro m hm; rw [hent, hcl, if_neg hm]) H2 hb) e s hdp hup hfl (fun h => hcv (hiff.1 h))
    exact ⟨s', fib, m, w1, w2, w3, w4.trans hc.hdst.symm⟩

/-! ### concrete cases -/

/-- "permit out ip from 8.8.8.8/32 to assigned" -/
def Demo.google : List Char := "permit out ip from 8.8.8.8/32 to assigned".toList
/-- "permit out ip from 1.1.1.1/32 to assigned" -/
def Demo.cloud : List Char := "permit out ip from 1.1.1.1/32 to assigned".toList
def Demo.googleRule : SdfRule := ⟨none, .net [8, 8, 8, 8] 32, (0, 65535), .any, (0, 65535)⟩
def Demo.cloudRule : SdfRule := ⟨none, .net [1, 1, 1, 1] 32, (0, 65535), .any, (0, 65535)⟩
theorem Demo.google_text : FilterText4 Demo.google Demo.googleRule := by
  refine ⟨?_, ⟨rfl, by decide⟩, trivial, by decide⟩
  have := demo_text "8.8.8.8".toList [8, 8, 8, 8] "32".toList 32 (by decide +kernel) (by decide) (by decide)
  have e : Demo.google = "permit out ip from ".toList ++ ("8.8.8.8".toList ++ ['/'] ++ "32".toList) ++ " to assigned".toList := by decide
  rw [e]; exact this
theorem Demo.cloud_text : FilterText4 Demo.cloud Demo.cloudRule := by
  refine ⟨?_, ⟨rfl, by decide⟩, trivial, by decide⟩
  have := demo_text "1.1.1.1".toList [1, 1, 1, 1] "32".toList 32 (by decide +kernel) (by decide) (by decide)
  have e : Demo.cloud = "permit out ip from ".toList ++ ("1.1.1.1".toList ++ ['/'] ++ "32".toList) ++ " to assigned".toList := by decide
  rw [e]; exact this

/-- a FAR into the tunnel to 10.0.3.20 with this TEID -/
def Demo.into (i t : U32) : FarIE :=
  { kind := .create, farId := some i, applyAction := some [2], forward := some (some (some ⟨0x0100, t, some 0x0A000314, false⟩)) }
/-- a PDR for this UE address -/
def Demo.toUe (i : U16) (far : U32) (ip : Ip4) (sdf : Option (List Char)) : PdrIE :=
  { pdrId := some i, farId := some far, qerId := some 1, sdf := sdf, pdi := some { ueip := some (some { ipv4 := some ip }) } }
/-- a PDR for this TEID -/
def Demo.fromUe (i : U16) (far : U32) (t : U32) (sdf : Option (List Char)) : PdrIE :=
  { pdrId := some i, farId := some far, qerId := some 1, ohr := some 0, sdf := sdf, pdi := some { fteid := some (some ⟨t, false, none⟩) } }
theorem Demo.names_toUe {i : U16} {far : U32} {ip : Ip4} {sdf : Option (List Char)} {k : PdrKey} (h : (Demo.toUe i far ip sdf).names k) : k = .dl4 ip := by
  cases k with
  | ul t => obtain ⟨pdi, f, a1, a2, -⟩ := h; cases a1; cases a2
  | dl4 x => obtain ⟨pdi, f, a1, -, a2, a3⟩ := h; cases a1; cases a2; cases a3; rfl
  | dl6 x => obtain ⟨pdi, f, a1, -, a2, a3, a4⟩ := h; cases a1; cases a2; cases a3
theorem Demo.names_fromUe {i : U16} {far t : U32} {sdf : Option (List Char)} {k : PdrKey} (h : (Demo.fromUe i far t sdf).names k) : k = .ul t := by
  cases k with
  | ul x => obtain ⟨pdi, f, a1, a2, -, a3⟩ := h; cases a1; cases a2; rw [← a3]
  | dl4 x => obtain ⟨pdi, f, a1, a2, a3⟩ := h; cases a1; cases a2
  | dl6 x => obtain ⟨pdi, f, a1, a2, a3⟩ := h; cases a1; cases a2
theorem Demo.on_toUe (i : U16) (far : U32) (ip : Ip4) (sdf : Option (List Char)) : (Demo.toUe i far ip sdf).matchesOn (.dl4 ip) :=
  ⟨_, _, rfl, rfl, rfl, rfl, rfl⟩
theorem Demo.on_fromUe (i : U16) (far t : U32) (sdf : Option (List Char)) : (Demo.fromUe i far t sdf).matchesOn (.ul t) :=
  ⟨_, _, rfl, rfl, rfl, rfl⟩

/-- two peers, and no message gave any key -/
theorem Demo.two_never {k : PdrKey} (hk : k = .ul 0x100 ∨ k = .dl4 0x0A3C0001 ∨ k = .dl4 0x0A3C0002) :
    ∃ h, HistP (NeverGiven k) Demo.n0 h Demo.nSvc0 ∧ attempts h = 0 := by
  have s1 := HistP.step (P := NeverGiven k) (n0 := Demo.n0) (.assocSetup 1 1 (some (some ())) (some (some ()))) .init
    ⟨trivial, id, by
      rcases hk with rfl | rfl | rfl
      · show ¬ (0x100 : U32) ∈ freeTeids Demo.n0.rm; decide +kernel
      · show ¬ (0x0A3C0001 : Ip4) ∈ freeIps Demo.n0.rm; decide +kernel
      · show ¬ (0x0A3C0002 : Ip4) ∈ freeIps Demo.n0.rm; decide +kernel⟩ (by decide +kernel)
  have s2 := HistP.step (.assocSetup 2 1 (some (some ())) (some (some ()))) s1
    ⟨trivial, id, by
      rcases hk with rfl | rfl | rfl
      · show ¬ (0x100 : U32) ∈ freeTeids (Demo.n0.step (.assocSetup 1 1 (some (some ())) (some (some ())))).1.rm; decide +kernel
      · show ¬ (0x0A3C0001 : Ip4) ∈ freeIps (Demo.n0.step (.assocSetup 1 1 (some (some ())) (some (some ())))).1.rm; decide +kernel
      · show ¬ (0x0A3C0002 : Ip4) ∈ freeIps (Demo.n0.step (.assocSetup 1 1 (some (some ())) (some (some ())))).1.rm; decide +kernel⟩ (by decide +kernel)
  exact ⟨_, s2, by simp [attempts]⟩

/-- a request with FARs 1 (tunnel 0x200), 2 (tunnel 0x201), 3 (forward), 4 (drop) -/
def Demo.req (pdrs : List PdrIE) : EstReq :=
  { seq := 7, nodeId := some (some ()), cpFseid := some (some 100),
    createFar := [Demo.into 1 0x200, Demo.into 2 0x201, { kind := .create, farId := some 3, applyAction := some [2] },
      { kind := .create, farId := some 4, applyAction := some [1] }],
    createQer := [{ qerId := some 1, qfi := some 9 }], createPdr := pdrs }
theorem Demo.req_rules1 (i : U16) (ip : Ip4) (sdf : Option (List Char)) (l : List PdrIE) : HasRules (Demo.req l) (Demo.toUe i 1 ip sdf) (Demo.into 1 0x200)
    { qerId := some 1, qfi := some 9 } := ⟨⟨1, [], _, rfl, rfl, rfl, by decide⟩, ⟨1, [], [], rfl, rfl, rfl, by simp⟩⟩
theorem Demo.req_rules2 (i : U16) (ip : Ip4) (sdf : Option (List Char)) (l : List PdrIE) : HasRules (Demo.req l) (Demo.toUe i 2 ip sdf) (Demo.into 2 0x201)
    { qerId := some 1, qfi := some 9 } := ⟨⟨2, [_], _, rfl, rfl, rfl, by decide⟩, ⟨1, [], [], rfl, rfl, rfl, by simp⟩⟩
theorem Demo.req_rules3 (i : U16) (t : U32) (sdf : Option (List Char)) (l : List PdrIE) : HasRules (Demo.req l) (Demo.fromUe i 3 t sdf)
    { kind := .create, farId := some 3, applyAction := some [2] } { qerId := some 1, qfi := some 9 } :=
  ⟨⟨3, [_, _], _, rfl, rfl, rfl, by decide⟩, ⟨1, [], [], rfl, rfl, rfl, by simp⟩⟩
theorem Demo.req_rules4 (i : U16) (t : U32) (sdf : Option (List Char)) (l : List PdrIE) : HasRules (Demo.req l) (Demo.fromUe i 4 t sdf)
    { kind := .create, farId := some 4, applyAction := some [1] } { qerId := some 1, qfi := some 9 } :=
  ⟨⟨4, [_, _, _], [], rfl, rfl, rfl, by simp⟩, ⟨1, [], [], rfl, rfl, rfl, by simp⟩⟩
theorem Demo.into_tunnel (i t : U32) : (Demo.into i t).intoTunnel 0x0A000314 t 0 := ⟨⟨2, [], rfl, rfl⟩, ⟨_, rfl, by simp only; decide, rfl, rfl⟩, by simp only [Demo.into]; decide⟩

/-- packets from 8.8.8.8 in tunnel 0x201, from others in tunnel 0x200; and an uplink PDR with the same filter -/
def Demo.reqF : EstReq := Demo.req [Demo.toUe 1 1 0x0A3C0001 none, Demo.toUe 2 2 0x0A3C0001 (some Demo.google), Demo.fromUe 3 3 0x100 (some Demo.google)]
def Demo.nF : Node := (Demo.nSvc0.step (.establish 1 Demo.reqF)).1
theorem Demo.nF_step : Demo.nSvc0.step (.establish 1 Demo.reqF) = (Demo.nF, .reply Demo.svcResp) := by
  have : (Demo.nSvc0.step (.establish 1 Demo.reqF)).2 = .reply Demo.svcResp := by decide +kernel
  exact Prod.ext (by simp only [Demo.nF]) this
theorem Demo.reqF_two : AsksTwo Demo.reqF (Demo.toUe 1 1 0x0A3C0001 none) (Demo.toUe 2 2 0x0A3C0001 (some Demo.google)) (.dl4 0x0A3C0001) := by
  refine ⟨by decide, Demo.on_toUe .., Demo.on_toUe .., [], [], [_], rfl, ?_⟩
  intro x hx h
  simp only [List.nil_append, List.mem_singleton] at hx
  subst hx
  cases Demo.names_fromUe h
theorem Demo.reqF_one : AsksFilter Demo.reqF (Demo.fromUe 3 3 0x100 (some Demo.google)) Demo.google (.ul 0x100) := by
  refine ⟨by decide, Demo.on_fromUe .., rfl, [_, _], [], rfl, ?_⟩
  intro x hx h
  simp only [List.append_nil, List.mem_cons, List.not_mem_nil, or_false] at hx
  rcases hx with rfl | rfl <;> cases Demo.names_toUe h

/-- `C91_downlink_default_partial` applied: every frame to 10.60.0.1 from 8.8.8.8 goes in tunnel 0x201, every other in tunnel 0x200. -/
example (e : Env) (s : PS) (hdp : s.dp = Demo.nF.dp) (hd : IsDown4 e s.frame) (hip : be32 s.frame 30 = 0x0A3C0001) (hroom : e.headroom ≠ none)
    {proto : U8} {src dst : List U8} {sport dport : U16} (hc : Carries4 s.frame 14 proto src dst sport dport) :
    (Demo.googleRule.Covers proto src dst sport dport → ∃ s' fib, runPacket e s = (s', .ok (routeAct e (e.fib fib))) ∧ fib.dst = slice s'.frame 30 4 ∧
      IsTunnelled ⟨e.n3Ip, 0x0A000314, 0, 9, 0x201⟩ (be16 s.frame 16) (s.frame.drop 14) s'.frame) ∧
    (¬ Demo.googleRule.Covers proto src dst sport dport → ∃ s' fib, runPacket e s = (s', .ok (routeAct e (e.fib fib))) ∧ fib.dst = slice s'.frame 30 4 ∧
      IsTunnelled ⟨e.n3Ip, 0x0A000314, 0, 9, 0x200⟩ (be16 s.frame 16) (s.frame.drop 14) s'.frame) := by
  obtain ⟨h1, H1, b1⟩ := Demo.two_never (k := .dl4 0x0A3C0001) (.inr (.inl rfl))
  exact C91_downlink_default_partial H1 (by decide +kernel) Demo.nF_step rfl Demo.reqF_two rfl rfl Demo.google_text (Demo.req_rules1 ..) (Demo.req_rules2 ..)
    (Demo.into_tunnel ..) (Demo.into_tunnel ..) rfl rfl rfl rfl rfl .init (by rw [b1]; decide) e s hdp hd hip hroom hc

theorem Demo.down_carries : Carries4 DemoDp.down 14 17 [8, 8, 8, 8] [10, 60, 0, 1] 5000 53 :=
  ⟨by decide, by decide, by decide, .inl ⟨rfl, by decide, by decide, by decide⟩⟩
theorem Demo.google_covers : Demo.googleRule.Covers 17 [8, 8, 8, 8] [10, 60, 0, 1] 5000 53 :=
  ⟨fun p (h : none = some p) => (by cases h), ⟨rfl, fun i _ => rfl⟩, trivial, by decide, by decide⟩
/-- … for one: in tunnel 0x201. -/
example : IsDown4 DemoDp.env DemoDp.down ∧ be32 DemoDp.down 30 = 0x0A3C0001 ∧ DemoDp.env.headroom ≠ none ∧
    (runPacket DemoDp.env ⟨DemoDp.down, Demo.nF.dp, {}, {}⟩).2 = .ok (.redirect 7) ∧
    be32 (runPacket DemoDp.env ⟨DemoDp.down, Demo.nF.dp, {}, {}⟩).1.frame 46 = 0x201 :=
  ⟨DemoDp.down_down4, by decide, by decide, by decide +kernel, by decide +kernel⟩

theorem Demo.up_uplink : UplinkIp4 DemoDp.env DemoDp.up 0x100 50 :=
  ⟨DemoDp.up_gpdu, by decide, by decide, .plain (by decide), .inl (by decide), by decide, by decide, by decide⟩
theorem Demo.up_carries : Carries4 DemoDp.up 50 17 [10, 60, 0, 1] [8, 8, 8, 8] 5000 53 :=
  ⟨by decide, by decide, by decide, .inl ⟨rfl, by decide, by decide, by decide⟩⟩

/-- **C91 fails: uplink filters are compared without exchanging source and destination.** Flow descriptions are given in downlink sense
(3GPP TS 29.244, 8.2.5: "to assigned" is the UE). A session has an uplink PDR for traffic between the UE and 8.8.8.8. The UE's
packet to 8.8.8.8 is in the flow, but not forwarded. -/
theorem C91_uplink_not_exchanged : ∃ h r n resp pie text rule, HistP (NeverGiven (.ul 0x100)) Demo.n0 h Demo.nSvc0 ∧
    Demo.nSvc0.step (.establish 1 r) = (n, .reply resp) ∧ resp.cause = 1 ∧ AsksFilter r pie text (.ul 0x100) ∧ FilterText4 text rule ∧
    UplinkIp4 DemoDp.env DemoDp.up 0x100 50 ∧ Carries4 DemoDp.up 50 17 [10, 60, 0, 1] [8, 8, 8, 8] 5000 53 ∧
    rule.Covers 17 [8, 8, 8, 8] [10, 60, 0, 1] 53 5000 ∧ (runPacket DemoDp.env ⟨DemoDp.up, n.dp, {}, {}⟩).2 = .ok .pass := by
  obtain ⟨h1, H1, b1⟩ := Demo.two_never (k := .ul 0x100) (.inl rfl)
  exact ⟨h1, Demo.reqF, Demo.nF, Demo.svcResp, _, Demo.google, Demo.googleRule, H1, Demo.nF_step, rfl, Demo.reqF_one, Demo.google_text, Demo.up_uplink,
    Demo.up_carries, ⟨fun p (h : none = some p) => (by cases h), ⟨rfl, fun i _ => rfl⟩, trivial, by decide, by decide⟩, by decide +kernel⟩

/-- `C91_uplink_partial` applied: G-PDUs whose payload comes *from* 8.8.8.8 are forwarded, others go to the host. -/
example (e : Env) (s : PS) (hdp : s.dp = Demo.nF.dp) {o : Nat} (hup : UplinkIp4 e s.frame 0x100 o)
    {proto : U8} {src dst : List U8} {sport dport : U16} (hc : Carries4 s.frame o proto src dst sport dport) :
    (Demo.googleRule.Covers proto src dst sport dport → ∃ s' fib m, runPacket e s = (s', .ok (routeAct e (e.fib fib))) ∧ m.length = 12 ∧
      s'.frame = m ++ [8, 0] ++ s.frame.drop o ∧ fib.dst = dst) ∧
    (¬ Demo.googleRule.Covers proto src dst sport dport → ∃ s', runPacket e s = (s', .ok .pass) ∧ s'.frame = s.frame ∧ s'.dp = s.dp) := by
  obtain ⟨h1, H1, b1⟩ := Demo.two_never (k := .ul 0x100) (.inl rfl)
  exact C91_uplink_partial (by decide) H1 (by decide +kernel) Demo.nF_step rfl Demo.reqF_one Demo.google_text rfl (Demo.req_rules3 ..)
    ⟨⟨2, [], rfl, rfl⟩, by simp⟩ rfl rfl rfl .init (by rw [b1]; decide) e s hdp hup hc

/-- only packets from 8.8.8.8; the UE may send to all but 8.8.8.8 … in the sense of `C91_uplink_default_partial`, to all it does not hear from there -/
def Demo.reqG : EstReq := Demo.req [Demo.toUe 1 1 0x0A3C0001 (some Demo.google), Demo.fromUe 2 3 0x100 none, Demo.fromUe 3 4 0x100 (some Demo.google)]
def Demo.nG : Node := (Demo.nSvc0.step (.establish 1 Demo.reqG)).1
theorem Demo.nG_step : Demo.nSvc0.step (.establish 1 Demo.reqG) = (Demo.nG, .reply Demo.svcResp) := by
  have : (Demo.nSvc0.step (.establish 1 Demo.reqG)).2 = .reply Demo.svcResp := by decide +kernel
  exact Prod.ext (by simp only [Demo.nG]) this
theorem Demo.reqG_one : AsksFilter Demo.reqG (Demo.toUe 1 1 0x0A3C0001 (some Demo.google)) Demo.google (.dl4 0x0A3C0001) := by
  refine ⟨by decide, Demo.on_toUe .., rfl, [], [_, _], rfl, ?_⟩
  intro x hx h
  simp only [List.nil_append, List.mem_cons, List.not_mem_nil, or_false] at hx
  rcases hx with rfl | rfl <;> cases Demo.names_fromUe h
theorem Demo.reqG_two : AsksTwo Demo.reqG (Demo.fromUe 2 3 0x100 none) (Demo.fromUe 3 4 0x100 (some Demo.google)) (.ul 0x100) := by
  refine ⟨by decide, Demo.on_fromUe .., Demo.on_fromUe .., [_], [], [], rfl, ?_⟩
  intro x hx h
  simp only [List.append_nil, List.mem_singleton] at hx
  subst hx
  cases Demo.names_toUe h

/-- `C91_downlink` applied. -/
example (e : Env) (s : PS) (hdp : s.dp = Demo.nG.dp) (hd : IsDown4 e s.frame) (hip : be32 s.frame 30 = 0x0A3C0001) (hroom : e.headroom ≠ none)
    {proto : U8} {src dst : List U8} {sport dport : U16} (hc : Carries4 s.frame 14 proto src dst sport dport) :
    (Demo.googleRule.Covers proto src dst sport dport → ∃ s' fib, runPacket e s = (s', .ok (routeAct e (e.fib fib))) ∧ fib.dst = slice s'.frame 30 4 ∧
      IsTunnelled ⟨e.n3Ip, 0x0A000314, 0, 9, 0x200⟩ (be16 s.frame 16) (s.frame.drop 14) s'.frame) ∧
    (¬ Demo.googleRule.Covers proto src dst sport dport → ∃ s', runPacket e s = (s', .ok .pass) ∧ s'.frame = s.frame ∧ s'.dp = s.dp) := by
  obtain ⟨h1, H1, b1⟩ := Demo.two_never (k := .dl4 0x0A3C0001) (.inr (.inl rfl))
  exact C91_downlink H1 (by decide +kernel) Demo.nG_step rfl Demo.reqG_one Demo.google_text (Demo.req_rules1 ..)
    (Demo.into_tunnel ..) rfl rfl rfl .init (by rw [b1]; decide) e s hdp hd hip hroom hc

/-- `C91_uplink_default_partial` applied. -/
example (e : Env) (s : PS) (hdp : s.dp = Demo.nG.dp) {o : Nat} (hup : UplinkIp4 e s.frame 0x100 o)
    {proto : U8} {src dst : List U8} {sport dport : U16} (hc : Carries4 s.frame o proto src dst sport dport) :
    (Demo.googleRule.Covers proto src dst sport dport → ∃ s', runPacket e s = (s', .ok .drop)) ∧
    (¬ Demo.googleRule.Covers proto src dst sport dport → ∃ s' fib m, runPacket e s = (s', .ok (routeAct e (e.fib fib))) ∧ m.length = 12 ∧
      s'.frame = m ++ [8, 0] ++ s.frame.drop o ∧ fib.dst = dst) := by
  obtain ⟨h1, H1, b1⟩ := Demo.two_never (k := .ul 0x100) (.inl rfl)
  exact C91_uplink_default_partial (by decide) H1 (by decide +kernel) Demo.nG_step rfl Demo.reqG_two rfl rfl Demo.google_text (Demo.req_rules3 ..)
    (Demo.req_rules4 ..) rfl ⟨⟨2, [], rfl, rfl⟩, by simp⟩ ⟨1, [], rfl, rfl⟩ rfl rfl rfl .init (by rw [b1]; decide) e s hdp hup hc

/-- the same as `Demo.reqF` in the other order -/
def Demo.reqH : EstReq := Demo.req [Demo.toUe 2 2 0x0A3C0001 (some Demo.google), Demo.toUe 1 1 0x0A3C0001 none]
def Demo.nH : Node := (Demo.nSvc0.step (.establish 1 Demo.reqH)).1
theorem Demo.nH_step : Demo.nSvc0.step (.establish 1 Demo.reqH) = (Demo.nH, .reply Demo.svcResp) := by
  have : (Demo.nSvc0.step (.establish 1 Demo.reqH)).2 = .reply Demo.svcResp := by decide +kernel
  exact Prod.ext (by simp only [Demo.nH]) this

/-- `C91_default_last` applied: now all go in tunnel 0x200; for example a packet from 8.8.8.8. -/
example (e : Env) (s : PS) (hdp : s.dp = Demo.nH.dp) (hd : IsDown4 e s.frame) (hip : be32 s.frame 30 = 0x0A3C0001) (hroom : e.headroom ≠ none) :
    ∃ s' fib, runPacket e s = (s', .ok (routeAct e (e.fib fib))) ∧ fib.dst = slice s'.frame 30 4 ∧
      IsTunnelled ⟨e.n3Ip, 0x0A000314, 0, 9, 0x200⟩ (be16 s.frame 16) (s.frame.drop 14) s'.frame := by
  obtain ⟨h1, H1, b1⟩ := Demo.two_never (k := .dl4 0x0A3C0001) (.inr (.inl rfl))
  exact C91_default_last H1 (by decide +kernel) Demo.nH_step rfl ⟨by decide, Demo.on_toUe 2 2 _ (some Demo.google), Demo.on_toUe .., [], [], [], rfl, by simp⟩ rfl
    (Demo.req_rules1 ..) (Demo.into_tunnel ..) rfl rfl rfl .init (by rw [b1]; decide) e s hdp hd hip hroom
example : (runPacket DemoDp.env ⟨DemoDp.down, Demo.nH.dp, {}, {}⟩).2 = .ok (.redirect 7) ∧
    be32 (runPacket DemoDp.env ⟨DemoDp.down, Demo.nH.dp, {}, {}⟩).1.frame 46 = 0x200 := ⟨by decide +kernel, by decide +kernel⟩

/-- peer 1 has a session for UE 10.60.0.1, with tunnel 0x200 -/
def Demo.reqI : EstReq := { Demo.req [Demo.toUe 1 1 0x0A3C0001 none] with createFar := [Demo.into 1 0x200] }
def Demo.nI : Node := (Demo.nSvc0.step (.establish 1 Demo.reqI)).1
/-- peer 2 wants packets to UE 10.60.0.2 from 8.8.8.8 and from 1.1.1.1 dropped -/
def Demo.reqJ : EstReq := { Demo.req [Demo.toUe 1 4 0x0A3C0002 (some Demo.google), Demo.toUe 2 4 0x0A3C0002 (some Demo.cloud)] with
  createFar := [{ kind := .create, farId := some 4, applyAction := some [1] }] }
def Demo.nJ : Node := (Demo.nI.step (.establish 2 Demo.reqJ)).1
theorem Demo.nI_step : Demo.nSvc0.step (.establish 1 Demo.reqI) = (Demo.nI, .reply Demo.svcResp) := by
  have : (Demo.nSvc0.step (.establish 1 Demo.reqI)).2 = .reply Demo.svcResp := by decide +kernel
  exact Prod.ext (by simp only [Demo.nI]) this
def Demo.nJResp : Resp := { type := .establishment, seid := 100, seq := 7, cause := 1, fseid := some 2 }
theorem Demo.nJ_step : Demo.nI.step (.establish 2 Demo.reqJ) = (Demo.nJ, .reply Demo.nJResp) := by
  have : (Demo.nI.step (.establish 2 Demo.reqJ)).2 = .reply Demo.nJResp := by decide +kernel
  exact Prod.ext (by simp only [Demo.nJ]) this
theorem HistP.snoc {P : Node → Ev → Prop} {n0 : Node} {h : List (Ev × Outcome)} {n n' : Node} {e : Ev} {r : Resp} (H : HistP P n0 h n) (hp : P n e)
    (hs : n.step e = (n', .reply r)) : HistP P n0 ((e, .reply r) :: h) n' := by
  have := HistP.step e H hp (by rw [hs]; simp)
  rwa [hs] at this
theorem attempts_establish (a : Addr) (r : EstReq) (o : Outcome) (h : List (Ev × Outcome)) : attempts ((.establish a r, o) :: h) = attempts h + 1 := by
  simp [attempts]
theorem Demo.reqI_never : NeverGiven (.dl4 0x0A3C0002) Demo.nSvc0 (.establish 1 Demo.reqI) := by
  refine ⟨trivial, ?_, ?_⟩
  · rintro ⟨ie, hie, h⟩
    have hie : ie ∈ [Demo.toUe 1 1 0x0A3C0001 none] := hie
    rw [List.mem_singleton] at hie
    subst hie
    have := Demo.names_toUe h
    simp at this
  · show ¬ (0x0A3C0002 : Ip4) ∈ freeIps Demo.nSvc0.rm; decide +kernel
theorem Demo.nI_never : ∃ h, HistP (NeverGiven (.dl4 0x0A3C0002)) Demo.n0 h Demo.nI ∧ attempts h = 1 := by
  obtain ⟨h1, H1, b1⟩ := Demo.two_never (k := .dl4 0x0A3C0002) (.inr (.inr rfl))
  exact ⟨_, H1.snoc Demo.reqI_never Demo.nI_step, by rw [attempts_establish, b1]⟩
/-- a packet from 8.8.8.8 to 10.60.0.2 -/
def DemoDp.down2 : List U8 := macsIn ++ [8, 0] ++ (ip4h 32 17 [8, 8, 8, 8] [10, 60, 0, 2] ++ udp4)
theorem Demo.down2_carries : Carries4 DemoDp.down2 14 17 [8, 8, 8, 8] [10, 60, 0, 2] 5000 53 :=
  ⟨by decide, by decide, by decide, .inl ⟨rfl, by decide, by decide, by decide⟩⟩
theorem Demo.reqJ_two : AsksTwo Demo.reqJ (Demo.toUe 1 4 0x0A3C0002 (some Demo.google)) (Demo.toUe 2 4 0x0A3C0002 (some Demo.cloud)) (.dl4 0x0A3C0002) :=
  ⟨by decide, Demo.on_toUe .., Demo.on_toUe .., [], [], [], rfl, by simp⟩

/-- `C91_two_filters` applied: every packet to 10.60.0.2 not from 1.1.1.1 gets FAR slot 0 … -/
example (fr : List U8) (hip : be32 fr 30 = 0x0A3C0002) {proto : U8} {src dst : List U8} {sport dport : U16} (hc : Carries4 fr 14 proto src dst sport dport)
    (hcv : ¬ Demo.cloudRule.Covers proto src dst sport dport) : dlRule4 Demo.nJ.dp fr = some ⟨0, 0, 0⟩ := by
  obtain ⟨h1, H1, b1⟩ := Demo.nI_never
  exact C91_two_filters H1 (by decide +kernel) Demo.nJ_step rfl Demo.reqJ_two rfl Demo.google_text rfl Demo.cloud_text rfl .init (by rw [b1]; decide) fr hip
    hc hcv

theorem Demo.down2_sent : (runPacket DemoDp.env ⟨DemoDp.down2, Demo.nJ.dp, {}, {}⟩).2 = .ok (.redirect 7) ∧
    be32 (runPacket DemoDp.env ⟨DemoDp.down2, Demo.nJ.dp, {}, {}⟩).1.frame 30 = 0x0A000314 ∧
    be32 (runPacket DemoDp.env ⟨DemoDp.down2, Demo.nJ.dp, {}, {}⟩).1.frame 46 = 0x200 := by decide +kernel

/-- **C91 fails: packets in another session's tunnel.** … which is peer 1's. A packet for UE 10.60.0.2 that the first text covers, and that
peer 2 wanted dropped, is sent in the tunnel of UE 10.60.0.1, a session of peer 1. -/
theorem C91_anothers_tunnel : ∃ r1 n1 resp1 n2 resp2 one two, Demo.nSvc0.step (.establish 1 r1) = (n1, .reply resp1) ∧ resp1.cause = 1 ∧
    (∀ x ∈ r1.createPdr, x.matchesOn (.dl4 0x0A3C0001)) ∧
    n1.step (.establish 2 Demo.reqJ) = (n2, .reply resp2) ∧ resp2.cause = 1 ∧ AsksTwo Demo.reqJ one two (.dl4 0x0A3C0002) ∧
    one.sdf = some Demo.google ∧ (∃ fie qie, HasRules Demo.reqJ one fie qie ∧ fie.applyAction = some [1]) ∧
    Carries4 DemoDp.down2 14 17 [8, 8, 8, 8] [10, 60, 0, 2] 5000 53 ∧ Demo.googleRule.Covers 17 [8, 8, 8, 8] [10, 60, 0, 2] 5000 53 ∧
    (runPacket DemoDp.env ⟨DemoDp.down2, n2.dp, {}, {}⟩).2 = .ok (.redirect 7) ∧
    be32 (runPacket DemoDp.env ⟨DemoDp.down2, n2.dp, {}, {}⟩).1.frame 30 = 0x0A000314 ∧
    be32 (runPacket DemoDp.env ⟨DemoDp.down2, n2.dp, {}, {}⟩).1.frame 46 = 0x200 := by
  refine ⟨Demo.reqI, Demo.nI, Demo.svcResp, Demo.nJ, Demo.nJResp, _, _, Demo.nI_step, rfl, ?_, Demo.nJ_step, rfl, Demo.reqJ_two, rfl, ?_, Demo.down2_carries,
    ⟨fun p (h : none = some p) => (by cases h), ⟨rfl, fun i _ => rfl⟩, trivial, by decide, by decide⟩, Demo.down2_sent⟩
  · intro x hx
    simp only [Demo.reqI, Demo.req, List.mem_singleton] at hx
    subst hx
    exact Demo.on_toUe ..
  · exact ⟨{ kind := .create, farId := some 4, applyAction := some [1] }, { qerId := some 1, qfi := some 9 },
      ⟨⟨4, [], [], rfl, rfl, rfl, by simp⟩, ⟨1, [], [], rfl, rfl, rfl, by simp⟩⟩, rfl⟩

end Eupf
