import Verif.Ies
import Verif.Props.EndToEnd
/-
C77-C82: what the handlers make of the child IEs of Create PDR and Create FAR.
-/
namespace Eupf

/-! ### which children matter -/

theorem findSome_filter {α β : Type} (f : α → Option β) (q : α → Bool) : ∀ (l : List α), (∀ x ∈ l, q x = false → f x = none) →
    (l.filter q).findSome? f = l.findSome? f
  | [], _ => rfl
  | x :: xs, h => by
    have ih := findSome_filter f q xs (fun y hy => h y (List.mem_cons_of_mem _ hy))
    cases hq : q x with
    | true => simp only [List.filter_cons, hq, ↓reduceIte, List.findSome?_cons, ih]
    | false =>
      have := h x List.mem_cons_self hq
      simp only [List.filter_cons, hq, Bool.false_eq_true, ↓reduceIte, List.findSome?_cons, ih, this]

theorem filterMap_filter' {α β : Type} (f : α → Option β) (q : α → Bool) : ∀ (l : List α), (∀ x ∈ l, q x = false → f x = none) →
    (l.filter q).filterMap f = l.filterMap f
  | [], _ => rfl
  | x :: xs, h => by
    have ih := filterMap_filter' f q xs (fun y hy => h y (List.mem_cons_of_mem _ hy))
    cases hq : q x with
    | true => simp only [List.filter_cons, hq, ↓reduceIte, List.filterMap_cons, ih]
    | false =>
      have := h x List.mem_cons_self hq
      simp only [List.filter_cons, hq, Bool.false_eq_true, ↓reduceIte, List.filterMap_cons, ih, this]

theorem fs_some {α β : Type} {f : α → Option β} {pre post : List α} {x : α} {b : β} (h : f x = some b) :
    (pre ++ x :: post).findSome? f = (pre.findSome? f).or (some b) := by
  rw [List.findSome?_append, List.findSome?_cons, h]
theorem fs_none {α β : Type} {f : α → Option β} {pre post : List α} {x : α} (h : f x = none) :
    (pre ++ x :: post).findSome? f = (pre.findSome? f).or (post.findSome? f) := by
  rw [List.findSome?_append, List.findSome?_cons, h]
theorem fm_none {α β : Type} {f : α → Option β} {pre post : List α} {x : α} (h : f x = none) :
    (pre ++ x :: post).filterMap f = pre.filterMap f ++ post.filterMap f := by
  rw [List.filterMap_append, List.filterMap_cons, h]

/-- is a QER ID IE -/
def PdrChild.isQer : PdrChild → Bool
  | .qerId _ => true
  | _ => false
/-- is a Precedence IE -/
def PdrChild.isPrecedence : PdrChild → Bool
  | .precedence _ => true
  | _ => false
/-- is an SDF Filter IE -/
def PdiChild.isSdf : PdiChild → Bool
  | .sdf _ _ => true
  | _ => false
/-- is a UE IP Address IE -/
def PdiChild.isUeip : PdiChild → Bool
  | .ueip _ => true
  | _ => false
/-- is an F-TEID IE -/
def PdiChild.isFteid : PdiChild → Bool
  | .fteid _ => true
  | _ => false
/-- is a Transport Level Marking IE -/
def FwdChild.isTlm : FwdChild → Bool
  | .tlm _ => true
  | _ => false

/-- `r` with the Create PDR `cs` at some place. -/
def RawEst.withPdr (r : RawEst) (l1 : List (List PdrChild)) (cs : List PdrChild) (l2 : List (List PdrChild)) : RawEst :=
  { r with createPdr := l1 ++ cs :: l2 }
/-- `r` with the Create FAR `cs` at some place. -/
def RawEst.withFar (r : RawEst) (l1 : List (List FarChild)) (cs : List FarChild) (l2 : List (List FarChild)) : RawEst :=
  { r with createFar := l1 ++ cs :: l2 }

theorem withPdr_congr {r : RawEst} {l1 l2 : List (List PdrChild)} {c d : List PdrChild} (h : PdrIE.ofChildren c = PdrIE.ofChildren d) :
    (r.withPdr l1 c l2).req = (r.withPdr l1 d l2).req := by
  simp only [RawEst.withPdr, RawEst.req, List.map_append, List.map_cons, h]
theorem withFar_congr {r : RawEst} {l1 l2 : List (List FarChild)} {c d : List FarChild} (h : FarIE.ofChildren .create c = FarIE.ofChildren .create d) :
    (r.withFar l1 c l2).req = (r.withFar l1 d l2).req := by
  simp only [RawEst.withFar, RawEst.req, List.map_append, List.map_cons, h]

/-! ### C77: several QERs -/

theorem ofChildren_qer (pre post : List PdrChild) (i : Option U32) :
    PdrIE.ofChildren (pre ++ .qerId i :: post) = PdrIE.ofChildren (pre ++ .qerId i :: post.filter (fun x => !x.isQer)) := by
  have hs : ∀ {β : Type} (f : PdrChild → Option β), (∀ j, f (.qerId j) = none) →
      (pre ++ .qerId i :: post).findSome? f = (pre ++ .qerId i :: post.filter (fun x => !x.isQer)).findSome? f := by
    intro β f hf
    rw [List.findSome?_append, List.findSome?_append, List.findSome?_cons, List.findSome?_cons, hf i]
    simp only
    rw [findSome_filter]
    intro x _ hx
    cases x with
    | qerId j => exact hf j
    | _ => cases hx
  have hu : urrIdsOfChildren (pre ++ PdrChild.qerId i :: post) = urrIdsOfChildren (pre ++ .qerId i :: post.filter (fun x => !x.isQer)) := by
    unfold urrIdsOfChildren
    rw [fm_none rfl, fm_none rfl, filterMap_filter']
    intro x _ hx
    cases x with
    | qerId j => rfl
    | _ => cases hx
  unfold PdrIE.ofChildren
  rw [hs PdrChild.pdrId? (fun _ => rfl), hs PdrChild.ohr? (fun _ => rfl), hs PdrChild.farId? (fun _ => rfl), hs PdrChild.pdi? (fun _ => rfl), hu,
    fs_some (f := PdrChild.qerId?) rfl, fs_some (f := PdrChild.qerId?) rfl]

/-- **C77, negation for every request.** After the first QER ID of a Create PDR, further QER IDs make no difference: the node does
exactly what it does without them. -/
theorem C77_only_first (n : Node) (a : Addr) (r : RawEst) (l1 l2 : List (List PdrChild)) (pre post : List PdrChild) (i : Option U32) :
    n.step (.establish a (r.withPdr l1 (pre ++ .qerId i :: post) l2).req) =
    n.step (.establish a (r.withPdr l1 (pre ++ .qerId i :: post.filter (fun x => !x.isQer)) l2).req) := by
  rw [withPdr_congr (ofChildren_qer pre post i)]

/-- The FAR for the uplink: forward. -/
def Demo.rawFarUl : List FarChild := [.farId (some 1), .applyAction (some [2]), .forward [.destination 1]]
/-- The FAR for the downlink: forward, to 10.0.3.20, TEID 0x200. -/
def Demo.rawFarDl : List FarChild :=
  [.farId (some 2), .applyAction (some [2]), .forward [.destination 0, .ohc (some ⟨0x0100, 0x200, some 0x0A000314, false⟩)]]
/-- The downlink PDR of UE 10.60.0.1. -/
def Demo.rawPdrDl (qers : List U32) (sdfs : List PdiChild) : List PdrChild :=
  [.pdrId (some 2), .precedence 255, .pdi ([.source (some 1), .ueip (some { ipv4 := some 0x0A3C0001 })] ++ sdfs), .farId (some 2)] ++
    qers.map (fun q => .qerId (some q))
/-- A session with this downlink PDR; QER 2 closes the downlink gate. -/
def Demo.raw (fars : List (List FarChild)) (pdrs : List (List PdrChild)) : RawEst :=
  { seq := 7, nodeId := some (some ()), cpFseid := some (some 100), createFar := fars,
    createQer := [{ qerId := some 1, qfi := some 9 }, { qerId := some 2, gateDL := some 1 }], createPdr := pdrs }

/-- The node after such a request of peer 1. -/
def Demo.nRaw (r : RawEst) : Node := (Demo.nSvc0.step (.establish 1 r.req)).1
theorem Demo.raw_step {r : RawEst} (h : (Demo.nSvc0.step (.establish 1 r.req)).2 = .reply Demo.svcResp) :
    Demo.nSvc0.step (.establish 1 r.req) = (Demo.nRaw r, .reply Demo.svcResp) :=
  Prod.ext (by simp only [Demo.nRaw]) h

/-- **C77, negation.** The downlink PDR of UE 10.60.0.1 names QER 1 and QER 2, whose downlink gate is closed. The request is accepted
and packets to the UE are forwarded; with the QERs the other way round they are dropped. -/
theorem C77_second_gate_open :
    let q := fun l => Demo.nSvc0.step (.establish 1 (Demo.raw [Demo.rawFarDl] [Demo.rawPdrDl l []]).req)
    (q [1, 2]).2 = .reply Demo.svcResp ∧ (q [2, 1]).2 = .reply Demo.svcResp ∧
    (runPacket DemoDp.env ⟨DemoDp.down, (q [1, 2]).1.dp, {}, {}⟩).2 = .ok (.redirect 7) ∧
    (runPacket DemoDp.env ⟨DemoDp.down, (q [2, 1]).1.dp, {}, {}⟩).2 = .ok .drop := by
  decide +kernel

/-- **C77, positive part.** The first QER a PDR names is enforced: if its downlink gate is closed, then after an accepted establishment
and every later history elsewhere, every packet to the UE (fitting the PDR's filter) is dropped. -/
theorem C77_first_gate_partial {cfg : NodeCfg} {rm : Option ResourceManager} {p f q u : U32} {h1 : List (Ev × Outcome)} {n1 : Node}
    (H1 : HistP (fun n e => e.refsKnown n) (Node.init cfg rm (BpfObjects.load p f q u)) h1 n1)
    {a : Addr} {r : RawEst} {n2 : Node} {resp : Resp} (hstep : n1.step (.establish a r.req) = (n2, .reply resp)) (hacc : resp.cause = 1)
    {pre post : List PdrChild} {j : U32} (hpre : ∀ x ∈ pre, x.isQer = false) {fie : FarIE} {qie : QerIE} {ip : Ip4}
    (hask : AsksRule r.req (PdrIE.ofChildren (pre ++ .qerId (some j) :: post)) fie qie (.dl4 ip))
    (hgate : ∃ g, qie.gateDL = some g ∧ g ≠ 0)
    (hfree : ip ∉ freeIps n1.rm) (hused : ¬ n1.used (.dl4 ip))
    {seid : U64} (hse : resp.fseid = some seid) {h2 : List (Ev × Outcome)} {n3 : Node} (H2 : HistP (Elsewhere a seid (.dl4 ip)) n2 h2 n3)
    (hb : attempts h2 + attempts h1 + 1 < 2 ^ 64 - 2)
    (e : Env) (s : PS) (hdp : s.dp = n3.dp) (hd : IsDown4 e s.frame) (hip : be32 s.frame 30 = ip)
    (hfit : (PdrIE.ofChildren (pre ++ .qerId (some j) :: post)).fits (downFlow4 s.frame).sat) :
    qie.qerId = some j ∧ ∃ s', runPacket e s = (s', .ok .drop) ∧ s'.frame = s.frame ∧ s'.dp = s.dp := by
  obtain ⟨rr, far, qi, k, r1, r2, r3, r4, r5, r6, k1, k2, k3, k4, k5⟩ :=
    asked_rule H1 hstep hacc hask (by simp) hfree hused hse H2 hb
  constructor
  · obtain ⟨j', _, _, x1, x2, -⟩ := hask.qer
    have hq : (PdrIE.ofChildren (pre ++ .qerId (some j) :: post)).qerId = some j := by
      have : pre.findSome? PdrChild.qerId? = none := by
        rw [List.findSome?_eq_none_iff]
        intro x hx
        have := hpre x hx
        cases x with
        | qerId _ => cases this
        | _ => rfl
      show ((pre ++ .qerId (some j) :: post).findSome? PdrChild.qerId?).join = _
      rw [fs_some (f := PdrChild.qerId?) rfl, this]; rfl
    rw [x2, ← x1, hq]
  · have hr : dlRule4 s.dp s.frame = some rr := by
      unfold dlRule4
      rw [hdp, hip]
      exact r2 _ hfit
    refine C26_not_permitted_dropped e s rr (.inr (.inl ⟨hd, hr, ?_⟩))
    rintro ⟨far', qer', hp⟩
    obtain ⟨g, g1, g2⟩ := hgate
    have hq := hp.hasQer
    rw [hdp, r5] at hq
    cases hq
    exact g2 (by rw [← r6.gateDL.1 g g1, ← k2]; exact hp.gate)

/-- The hypotheses of `C77_first_gate_partial` are met by the request of `C77_second_gate_open` with the closed QER first: every packet to
10.60.0.1 is dropped. -/
example (e : Env) (s : PS) (hdp : s.dp = (Demo.nRaw (Demo.raw [Demo.rawFarDl] [Demo.rawPdrDl [2, 1] []])).dp)
    (hd : IsDown4 e s.frame) (hip : be32 s.frame 30 = 0x0A3C0001) : ∃ s', runPacket e s = (s', .ok .drop) ∧ s'.frame = s.frame ∧ s'.dp = s.dp := by
  obtain ⟨h1, H1, b1⟩ := Demo.two_hist
  have hst : (Demo.nSvc0.step (.establish 1 (Demo.raw [Demo.rawFarDl] [Demo.rawPdrDl [2, 1] []]).req)).2 = .reply Demo.svcResp := by decide +kernel
  exact (C77_first_gate_partial (r := Demo.raw [Demo.rawFarDl] [Demo.rawPdrDl [2, 1] []]) (j := 2)
    (pre := [.pdrId (some 2), .precedence 255, .pdi [.source (some 1), .ueip (some { ipv4 := some 0x0A3C0001 })], .farId (some 2)])
    (post := [.qerId (some 1)]) (fie := FarIE.ofChildren .create Demo.rawFarDl) (qie := { qerId := some 2, gateDL := some 1 })
    (cfg := Demo.cfg) H1 (Demo.raw_step hst) rfl (by decide)
    ⟨by decide, ⟨_, _, rfl, rfl, rfl, rfl, rfl⟩, ⟨[], [], rfl, by simp⟩, ⟨2, [], [], rfl, rfl, rfl, by simp⟩, ⟨2, [_], [], rfl, rfl, rfl, by simp⟩⟩
    ⟨1, rfl, by decide⟩ (by decide +kernel) (Demo.two_unused _) rfl (h2 := []) .init (by rw [b1]; decide) e s hdp hd hip
    (fun c cs f h => by cases h)).2

/-! ### C78: Transport Level Marking -/

theorem ofChildren_tlm (kind : FarKind) (pre post : List FarChild) (fs : List FwdChild) :
    FarIE.ofChildren kind (pre ++ .forward fs :: post) = FarIE.ofChildren kind (pre ++ .forward (fs.filter (fun x => !x.isTlm)) :: post) := by
  have hs : ∀ {β : Type} (f : FarChild → Option β), (∀ g, f (.forward g) = none) →
      (pre ++ .forward fs :: post).findSome? f = (pre ++ .forward (fs.filter (fun x => !x.isTlm)) :: post).findSome? f := by
    intro β f hf
    rw [List.findSome?_append, List.findSome?_append, List.findSome?_cons, List.findSome?_cons, hf, hf]
  have : ((pre ++ FarChild.forward fs :: post).findSome? FarChild.forward?).map ohcOfChildren =
      ((pre ++ FarChild.forward (fs.filter (fun x => !x.isTlm)) :: post).findSome? FarChild.forward?).map ohcOfChildren := by
    rw [fs_some (f := FarChild.forward?) rfl, fs_some (f := FarChild.forward?) rfl]
    cases pre.findSome? FarChild.forward? with
    | some g => rfl
    | none =>
      simp only [Option.none_or, Option.map_some]
      congr 1
      unfold ohcOfChildren
      rw [findSome_filter]
      intro x _ hx
      cases x with
      | tlm _ => rfl
      | _ => cases hx
  unfold FarIE.ofChildren tlmOfChildren
  rw [hs FarChild.farId? (fun _ => rfl), hs FarChild.applyAction? (fun _ => rfl), hs FarChild.tlm? (fun _ => rfl), this]

/-- **C78, negation for every request.** A Transport Level Marking inside the Forwarding Parameters (where TS 29.244 table 7.5.2.3-2 has
it) makes no difference. -/
theorem C78_in_forwarding_parameters (n : Node) (a : Addr) (r : RawEst) (l1 l2 : List (List FarChild)) (pre post : List FarChild)
    (fs : List FwdChild) :
    n.step (.establish a (r.withFar l1 (pre ++ .forward fs :: post) l2).req) =
    n.step (.establish a (r.withFar l1 (pre ++ .forward (fs.filter (fun x => !x.isTlm)) :: post) l2).req) := by
  rw [withFar_congr (ofChildren_tlm .create pre post fs)]

/-- The downlink FAR with a Transport Level Marking of 0x1C in the Forwarding Parameters, or beside them. -/
def Demo.rawFarTlm (inside : Bool) : List FarChild :=
  [.farId (some 2), .applyAction (some [2]),
   .forward ([.destination 0, .ohc (some ⟨0x0100, 0x200, some 0x0A000314, false⟩)] ++ if inside then [.tlm (some 0x1CFF)] else [])] ++
  if inside then [] else [.tlm (some 0x1CFF)]

/-- **C78, negation.** With Transport Level Marking 0x1C in the Forwarding Parameters packets to the UE leave with outer traffic class 0;
with the marking beside the Forwarding Parameters, with traffic class 0x1C. -/
theorem C78_unmarked :
    let q := fun b => Demo.nSvc0.step (.establish 1 (Demo.raw [Demo.rawFarTlm b] [Demo.rawPdrDl [1] []]).req)
    let s := fun b => runPacket DemoDp.env ⟨DemoDp.down, (q b).1.dp, {}, {}⟩
    (q true).2 = .reply Demo.svcResp ∧ (q false).2 = .reply Demo.svcResp ∧
    (s true).2 = .ok (.redirect 7) ∧ (s false).2 = .ok (.redirect 7) ∧ oct (s true).1.frame 15 = 0 ∧ oct (s false).1.frame 15 = 0x1C := by
  decide +kernel

/-- **C78, positive part.** A Transport Level Marking `t` that is a child of the Create FAR itself is the outer traffic class of every
packet sent to the UE. -/
theorem C78_beside_partial {cfg : NodeCfg} {rm : Option ResourceManager} {p f q u : U32} {h1 : List (Ev × Outcome)} {n1 : Node}
    (H1 : HistP (fun n e => e.refsKnown n) (Node.init cfg rm (BpfObjects.load p f q u)) h1 n1)
    {a : Addr} {r : RawEst} {n2 : Node} {resp : Resp} (hstep : n1.step (.establish a r.req) = (n2, .reply resp)) (hacc : resp.cause = 1)
    {pre mid post : List FarChild} {fs1 fs2 : List FwdChild} {act : U8} {acts : List U8} {o : Ohc} {t : U16} {pie : PdrIE} {qie : QerIE} {ip peer : Ip4}
    (hpre : ∀ x ∈ pre, ∃ i, x = .farId i) (hmid : ∀ x ∈ mid, ∃ c, x = .other c) (hfs : ∀ x ∈ fs1, ∃ d, x = .destination d)
    (hask : AsksRule r.req pie
      (FarIE.ofChildren .create (pre ++ .applyAction (some (act :: acts)) :: .forward (fs1 ++ .ohc (some o) :: fs2) :: (mid ++ .tlm (some t) :: post)))
      qie (.dl4 ip))
    (hforw : act.getLsbD 1 = true) (hgtp : (o.desc.toNat / 256) % 2 = 1) (hpeer : o.ipv4 = some peer)
    (hgate : qie.gateDL.getD 0 = 0) (hmbr : qie.mbrDL.getD 0 = 0)
    (hfree : ip ∉ freeIps n1.rm) (hused : ¬ n1.used (.dl4 ip))
    {seid : U64} (hse : resp.fseid = some seid) {h2 : List (Ev × Outcome)} {n3 : Node} (H2 : HistP (Elsewhere a seid (.dl4 ip)) n2 h2 n3)
    (hb : attempts h2 + attempts h1 + 1 < 2 ^ 64 - 2)
    (e : Env) (s : PS) (hdp : s.dp = n3.dp) (hd : IsDown4 e s.frame) (hip : be32 s.frame 30 = ip) (hfit : pie.fits (downFlow4 s.frame).sat)
    (hroom : e.headroom ≠ none) :
    ∃ s' fib, runPacket e s = (s', .ok (routeAct e (e.fib fib))) ∧ fib.dst = slice s'.frame 30 4 ∧
      IsTunnelled ⟨e.n3Ip, peer, (t >>> 8).truncate 8, qie.qfi.getD 0, o.teid⟩ (be16 s.frame 16) (s.frame.drop 14) s'.frame := by
  refine C65_downlink H1 hstep hacc hask (peer := peer) (teid := o.teid) ⟨⟨act, acts, ?_, hforw⟩, ⟨o, ?_, hgtp, hpeer, rfl⟩, ?_⟩
    hgate hmbr hfree hused hse H2 hb e s hdp hd hip hfit hroom
  all_goals
    have p1 : ∀ {β : Type} (g : FarChild → Option β), (∀ i, g (.farId i) = none) → pre.findSome? g = none := by
      intro β g hg
      rw [List.findSome?_eq_none_iff]
      intro x hx
      obtain ⟨i, rfl⟩ := hpre x hx
      exact hg i
    have p2 : ∀ {β : Type} (g : FarChild → Option β), (∀ i, g (.other i) = none) → mid.findSome? g = none := by
      intro β g hg
      rw [List.findSome?_eq_none_iff]
      intro x hx
      obtain ⟨i, rfl⟩ := hmid x hx
      exact hg i
    have p3 : ∀ {β : Type} (g : FwdChild → Option β), (∀ i, g (.destination i) = none) → fs1.findSome? g = none := by
      intro β g hg
      rw [List.findSome?_eq_none_iff]
      intro x hx
      obtain ⟨i, rfl⟩ := hfs x hx
      exact hg i
  · show (List.findSome? FarChild.applyAction? _).join = _
    rw [fs_some (f := FarChild.applyAction?) rfl, p1 _ (fun _ => rfl)]; rfl
  · show (List.findSome? FarChild.forward? _).map ohcOfChildren = _
    rw [fs_none (f := FarChild.forward?) rfl, p1 _ (fun _ => rfl)]
    show some (List.findSome? FwdChild.ohc? _) = _
    rw [fs_some (f := FwdChild.ohc?) rfl, p3 _ (fun _ => rfl)]; rfl
  · show _ = (Option.getD (List.findSome? FarChild.tlm? _).join 0).toNat / 256
    rw [fs_none (f := FarChild.tlm?) rfl, p1 _ (fun _ => rfl)]
    show _ = (Option.getD (List.findSome? FarChild.tlm? (mid ++ .tlm (some t) :: post)).join 0).toNat / 256
    rw [fs_some (f := FarChild.tlm?) rfl, p2 _ (fun _ => rfl)]
    exact hi8 t

/-- The hypotheses of `C78_beside_partial` are met by the request of `C78_unmarked` with the marking beside the Forwarding Parameters. -/
example (e : Env) (s : PS) (hdp : s.dp = (Demo.nRaw (Demo.raw [Demo.rawFarTlm false] [Demo.rawPdrDl [1] []])).dp)
    (hd : IsDown4 e s.frame) (hip : be32 s.frame 30 = 0x0A3C0001) (hroom : e.headroom ≠ none) :
    ∃ s' fib, runPacket e s = (s', .ok (routeAct e (e.fib fib))) ∧ fib.dst = slice s'.frame 30 4 ∧
      IsTunnelled ⟨e.n3Ip, 0x0A000314, 0x1C, 9, 0x200⟩ (be16 s.frame 16) (s.frame.drop 14) s'.frame := by
  obtain ⟨h1, H1, b1⟩ := Demo.two_hist
  have hst : (Demo.nSvc0.step (.establish 1 (Demo.raw [Demo.rawFarTlm false] [Demo.rawPdrDl [1] []]).req)).2 = .reply Demo.svcResp := by decide +kernel
  exact C78_beside_partial (r := Demo.raw [Demo.rawFarTlm false] [Demo.rawPdrDl [1] []]) (pre := [.farId (some 2)]) (mid := []) (post := [])
    (fs1 := [.destination 0]) (fs2 := []) (act := 2) (acts := []) (o := ⟨0x0100, 0x200, some 0x0A000314, false⟩) (t := 0x1CFF)
    (pie := PdrIE.ofChildren (Demo.rawPdrDl [1] [])) (qie := { qerId := some 1, qfi := some 9 })
    (cfg := Demo.cfg) H1 (Demo.raw_step hst) rfl (by simp) (by simp) (by simp)
    ⟨by decide, ⟨_, _, rfl, rfl, rfl, rfl, rfl⟩, ⟨[], [], rfl, by simp⟩, ⟨2, [], [], rfl, rfl, rfl, by simp⟩, ⟨1, [], [_], rfl, rfl, rfl, by simp⟩⟩
    (by decide) (by decide) rfl rfl rfl (by decide +kernel) (Demo.two_unused _) rfl (h2 := []) .init (by rw [b1]; decide) e s hdp hd hip
    (fun c cs f h => by cases h) hroom

/-! ### C79: several SDF filters -/

theorem ofPdi_congr {pre post : List PdrChild} {x y : List PdiChild} (h1 : Pdi.ofChildren x = Pdi.ofChildren y) (h2 : sdfOfChildren x = sdfOfChildren y) :
    PdrIE.ofChildren (pre ++ .pdi x :: post) = PdrIE.ofChildren (pre ++ .pdi y :: post) := by
  have hs : ∀ {β : Type} (f : PdrChild → Option β), (∀ g, f (.pdi g) = none) →
      (pre ++ .pdi x :: post).findSome? f = (pre ++ .pdi y :: post).findSome? f := by
    intro β f hf
    rw [List.findSome?_append, List.findSome?_append, List.findSome?_cons, List.findSome?_cons, hf, hf]
  have hu : urrIdsOfChildren (pre ++ .pdi x :: post) = urrIdsOfChildren (pre ++ .pdi y :: post) := by
    unfold urrIdsOfChildren
    rw [fm_none rfl, fm_none rfl]
  have hp : ∀ {γ : Type} (g : List PdiChild → γ), g x = g y →
      ((pre ++ .pdi x :: post).findSome? PdrChild.pdi?).map g =
      ((pre ++ .pdi y :: post).findSome? PdrChild.pdi?).map g := by
    intro γ g hg
    rw [fs_some (f := PdrChild.pdi?) rfl, fs_some (f := PdrChild.pdi?) rfl]
    cases pre.findSome? PdrChild.pdi? with
    | some g => rfl
    | none => simp only [Option.none_or, Option.map_some, hg]
  have hb : ∀ (o : Option (List PdiChild)), o.bind sdfOfChildren = (o.map sdfOfChildren).join := by
    intro o; cases o <;> rfl
  unfold PdrIE.ofChildren
  simp only [hb]
  rw [hs _ (fun _ => rfl), hs _ (fun _ => rfl), hs _ (fun _ => rfl), hs _ (fun _ => rfl), hu, hp _ h1, hp _ h2]

theorem pdi_sdf (p1 p2 : List PdiChild) (fd : Option (List Char)) (ttc : Option U16) (ttc' : Option U16) :
    Pdi.ofChildren (p1 ++ .sdf fd ttc :: p2) = Pdi.ofChildren (p1 ++ .sdf fd ttc' :: p2.filter (fun x => !x.isSdf)) ∧
    sdfOfChildren (p1 ++ .sdf fd ttc :: p2) = sdfOfChildren (p1 ++ .sdf fd ttc' :: p2.filter (fun x => !x.isSdf)) := by
  have hs : ∀ {β : Type} (f : PdiChild → Option β), (∀ a b, f (.sdf a b) = none) →
      (p1 ++ .sdf fd ttc :: p2).findSome? f = (p1 ++ .sdf fd ttc' :: p2.filter (fun x => !x.isSdf)).findSome? f := by
    intro β f hf
    rw [List.findSome?_append, List.findSome?_append, List.findSome?_cons, List.findSome?_cons, hf, hf]
    simp only
    rw [findSome_filter]
    intro x _ hx
    cases x with
    | sdf _ _ => exact hf _ _
    | _ => cases hx
  constructor
  · unfold Pdi.ofChildren
    rw [hs _ (fun _ _ => rfl), hs _ (fun _ _ => rfl)]
    congr 1
    rw [List.any_append, List.any_append, List.any_cons, List.any_cons, List.any_filter]
    congr 2
    refine congrArg p2.any (funext fun x => ?_)
    cases x <;> rfl
  · unfold sdfOfChildren
    rw [fs_some (f := PdiChild.sdf?) rfl, fs_some (f := PdiChild.sdf?) rfl]

/-- **C79, negation for every request.** After the first SDF Filter of a PDI, further SDF Filters make no difference, and neither does
the ToS traffic class of the first. -/
theorem C79_only_first (n : Node) (a : Addr) (r : RawEst) (l1 l2 : List (List PdrChild)) (pre post : List PdrChild) (p1 p2 : List PdiChild)
    (fd : Option (List Char)) (ttc ttc' : Option U16) :
    n.step (.establish a (r.withPdr l1 (pre ++ .pdi (p1 ++ .sdf fd ttc :: p2) :: post) l2).req) =
    n.step (.establish a (r.withPdr l1 (pre ++ .pdi (p1 ++ .sdf fd ttc' :: p2.filter (fun x => !x.isSdf)) :: post) l2).req) := by
  rw [withPdr_congr (ofPdi_congr (pdi_sdf p1 p2 fd ttc ttc').1 (pdi_sdf p1 p2 fd ttc ttc').2)]

def Demo.sdfA : PdiChild := .sdf (some "permit out ip from 1.1.1.1 to assigned".toList) none
def Demo.sdfB : PdiChild := .sdf (some "permit out ip from 8.8.8.8 to assigned".toList) none

/-- **C79, negation.** The downlink PDR of UE 10.60.0.1 has two SDF Filters, for packets from 1.1.1.1 and from 8.8.8.8. The request is
accepted, and a packet from 8.8.8.8 to the UE is not forwarded but passed to the host; with the filters the other way round it is
forwarded. -/
theorem C79_second_filter_lost :
    let q := fun l => Demo.nSvc0.step (.establish 1 (Demo.raw [Demo.rawFarDl] [Demo.rawPdrDl [1] l]).req)
    (q [Demo.sdfA, Demo.sdfB]).2 = .reply Demo.svcResp ∧ (q [Demo.sdfB, Demo.sdfA]).2 = .reply Demo.svcResp ∧
    (runPacket DemoDp.env ⟨DemoDp.down, (q [Demo.sdfA, Demo.sdfB]).1.dp, {}, {}⟩).2 = .ok .pass ∧
    (runPacket DemoDp.env ⟨DemoDp.down, (q [Demo.sdfB, Demo.sdfA]).1.dp, {}, {}⟩).2 = .ok (.redirect 7) := by
  decide +kernel

/-- **C79, positive part.** Packets to the UE that fit the first SDF Filter are forwarded as the PDR's FAR says. -/
theorem C79_first_partial {cfg : NodeCfg} {rm : Option ResourceManager} {p f q u : U32} {h1 : List (Ev × Outcome)} {n1 : Node}
    (H1 : HistP (fun n e => e.refsKnown n) (Node.init cfg rm (BpfObjects.load p f q u)) h1 n1)
    {a : Addr} {r : RawEst} {n2 : Node} {resp : Resp} (hstep : n1.step (.establish a r.req) = (n2, .reply resp)) (hacc : resp.cause = 1)
    {pre post : List PdrChild} {p1 p2 : List PdiChild} {fd : List Char} {ttc : Option U16} {fie : FarIE} {qie : QerIE} {ip : Ip4}
    (hpre : ∀ x ∈ pre, ∀ c, x ≠ .pdi c) (hp1 : ∀ x ∈ p1, x.isSdf = false)
    (hask : AsksRule r.req (PdrIE.ofChildren (pre ++ .pdi (p1 ++ .sdf (some fd) ttc :: p2) :: post)) fie qie (.dl4 ip))
    {peer : Ip4} {teid : U32} {tos : U8} (hfar : fie.intoTunnel peer teid tos)
    (hgate : qie.gateDL.getD 0 = 0) (hmbr : qie.mbrDL.getD 0 = 0)
    (hfree : ip ∉ freeIps n1.rm) (hused : ¬ n1.used (.dl4 ip))
    {seid : U64} (hse : resp.fseid = some seid) {h2 : List (Ev × Outcome)} {n3 : Node} (H2 : HistP (Elsewhere a seid (.dl4 ip)) n2 h2 n3)
    (hb : attempts h2 + attempts h1 + 1 < 2 ^ 64 - 2)
    (e : Env) (s : PS) (hdp : s.dp = n3.dp) (hd : IsDown4 e s.frame) (hip : be32 s.frame 30 = ip)
    {flt : SdfFilter} (hparse : Sdf.parse fd = some flt) (hfit : (downFlow4 s.frame).sat (toKFilter flt) = true)
    (hroom : e.headroom ≠ none) :
    ∃ s' fib, runPacket e s = (s', .ok (routeAct e (e.fib fib))) ∧ fib.dst = slice s'.frame 30 4 ∧
      IsTunnelled ⟨e.n3Ip, peer, tos, qie.qfi.getD 0, teid⟩ (be16 s.frame 16) (s.frame.drop 14) s'.frame := by
  refine C65_downlink H1 hstep hacc hask hfar hgate hmbr hfree hused hse H2 hb e s hdp hd hip ?_ hroom
  intro c cs flt' hsdf hp'
  have e1 : (PdrIE.ofChildren (pre ++ .pdi (p1 ++ .sdf (some fd) ttc :: p2) :: post)).sdf = some fd := by
    have x1 : pre.findSome? PdrChild.pdi? = none := by
      rw [List.findSome?_eq_none_iff]
      intro x hx
      have := hpre x hx
      cases x with
      | pdi c => exact absurd rfl (this c)
      | _ => rfl
    have x2 : p1.findSome? PdiChild.sdf? = none := by
      rw [List.findSome?_eq_none_iff]
      intro x hx
      have := hp1 x hx
      cases x with
      | sdf _ _ => cases this
      | _ => rfl
    show (List.findSome? PdrChild.pdi? _).bind sdfOfChildren = _
    rw [fs_some (f := PdrChild.pdi?) rfl, x1]
    show (List.findSome? PdiChild.sdf? _).join = _
    rw [fs_some (f := PdiChild.sdf?) rfl, x2]; rfl
  rw [e1] at hsdf
  cases hsdf
  rw [hparse] at hp'
  cases hp'
  exact hfit

/-- The hypotheses of `C79_first_partial` are met by the request of `C79_second_filter_lost` with the filter for 8.8.8.8 first. -/
example (e : Env) (s : PS) (hdp : s.dp = (Demo.nRaw (Demo.raw [Demo.rawFarDl] [Demo.rawPdrDl [1] [Demo.sdfB, Demo.sdfA]])).dp)
    (hd : IsDown4 e s.frame) (hip : be32 s.frame 30 = 0x0A3C0001) (hroom : e.headroom ≠ none)
    {flt : SdfFilter} (hp : Sdf.parse "permit out ip from 8.8.8.8 to assigned".toList = some flt) (hfit : (downFlow4 s.frame).sat (toKFilter flt) = true) :
    ∃ s' fib, runPacket e s = (s', .ok (routeAct e (e.fib fib))) ∧ fib.dst = slice s'.frame 30 4 ∧
      IsTunnelled ⟨e.n3Ip, 0x0A000314, 0, 9, 0x200⟩ (be16 s.frame 16) (s.frame.drop 14) s'.frame := by
  obtain ⟨h1, H1, b1⟩ := Demo.two_hist
  have hst : (Demo.nSvc0.step (.establish 1 (Demo.raw [Demo.rawFarDl] [Demo.rawPdrDl [1] [Demo.sdfB, Demo.sdfA]]).req)).2 = .reply Demo.svcResp := by
    decide +kernel
  exact C79_first_partial (r := Demo.raw [Demo.rawFarDl] [Demo.rawPdrDl [1] [Demo.sdfB, Demo.sdfA]]) (pre := [.pdrId (some 2), .precedence 255])
    (post := [.farId (some 2), .qerId (some 1)]) (p1 := [.source (some 1), .ueip (some { ipv4 := some 0x0A3C0001 })]) (p2 := [Demo.sdfA])
    (fd := "permit out ip from 8.8.8.8 to assigned".toList) (ttc := none) (fie := FarIE.ofChildren .create Demo.rawFarDl) (qie := { qerId := some 1, qfi := some 9 })
    (cfg := Demo.cfg) H1 (Demo.raw_step hst) rfl (by simp) (by decide)
    ⟨by decide, ⟨_, _, rfl, rfl, rfl, rfl, rfl⟩, ⟨[], [], rfl, by simp⟩, ⟨2, [], [], rfl, rfl, rfl, by simp⟩, ⟨1, [], [_], rfl, rfl, rfl, by simp⟩⟩
    ⟨⟨2, [], rfl, rfl⟩, ⟨_, rfl, by decide, rfl, rfl⟩, by decide⟩ rfl rfl (by decide +kernel) (Demo.two_unused _) rfl (h2 := []) .init
    (by rw [b1]; decide) e s hdp hd hip hp hfit hroom
/-- And `DemoDp.down` is such a packet. -/
example : ∃ flt, Sdf.parse "permit out ip from 8.8.8.8 to assigned".toList = some flt ∧ (downFlow4 DemoDp.down).sat (toKFilter flt) = true := by
  have h : ((Sdf.parse "permit out ip from 8.8.8.8 to assigned".toList).map fun f => (downFlow4 DemoDp.down).sat (toKFilter f)) = some true := by decide +kernel
  obtain ⟨flt, h1, h2⟩ := Option.map_eq_some_iff.1 h
  exact ⟨flt, h1, h2⟩

/-! ### C80: Precedence -/

theorem ofChildren_precedence (cs : List PdrChild) : PdrIE.ofChildren cs = PdrIE.ofChildren (cs.filter (fun x => !x.isPrecedence)) := by
  have hs : ∀ {β : Type} (f : PdrChild → Option β), (∀ j, f (.precedence j) = none) →
      cs.findSome? f = (cs.filter (fun x => !x.isPrecedence)).findSome? f := by
    intro β f hf
    rw [findSome_filter]
    intro x _ hx
    cases x with
    | precedence j => exact hf j
    | _ => cases hx
  unfold PdrIE.ofChildren
  rw [hs _ (fun _ => rfl), hs _ (fun _ => rfl), hs _ (fun _ => rfl), hs _ (fun _ => rfl), hs _ (fun _ => rfl)]
  have hu : urrIdsOfChildren cs = urrIdsOfChildren (cs.filter (fun x => !x.isPrecedence)) := by
    unfold urrIdsOfChildren
    rw [filterMap_filter']
    intro x _ hx
    cases x with
    | precedence j => rfl
    | _ => cases hx
  rw [hu]

/-- **C80, negation for every request.** Removing the Precedence IEs from all Create PDRs makes no difference. -/
theorem C80_precedence_ignored (n : Node) (a : Addr) (r : RawEst) :
    n.step (.establish a r.req) =
    n.step (.establish a ({ r with createPdr := r.createPdr.map (·.filter (fun x => !x.isPrecedence)) } : RawEst).req) := by
  have : r.req = ({ r with createPdr := r.createPdr.map (·.filter (fun x => !x.isPrecedence)) } : RawEst).req := by
    unfold RawEst.req
    simp only [List.map_map]
    congr 1
    refine congrArg (fun f => List.map f r.createPdr) (funext fun cs => ?_)
    exact ofChildren_precedence cs
  rw [← this]

/-- The dropping FAR. -/
def Demo.rawFarDrop : List FarChild := [.farId (some 3), .applyAction (some [1])]
/-- A downlink PDR of UE 10.60.0.1 with a filter for 8.8.8.8, which drops. -/
def Demo.rawPdrDrop (prec : U32) : List PdrChild :=
  [.pdrId (some 3), .precedence prec, .pdi [.source (some 1), .ueip (some { ipv4 := some 0x0A3C0001 }), Demo.sdfB], .farId (some 3), .qerId (some 1)]

/-- **C80, negation.** UE 10.60.0.1 has two downlink PDRs, both matching packets from 8.8.8.8: one without filter, precedence 255, that
forwards, and one with a filter, that drops. Such packets are dropped, be the precedence of the second 100 (it comes first) or 1000
(it comes last). -/
theorem C80_lower_precedence_wins :
    let q := fun p => Demo.nSvc0.step (.establish 1 (Demo.raw [Demo.rawFarDl, Demo.rawFarDrop] [Demo.rawPdrDl [1] [], Demo.rawPdrDrop p]).req)
    (q 100).2 = .reply Demo.svcResp ∧ (q 1000).2 = .reply Demo.svcResp ∧
    (runPacket DemoDp.env ⟨DemoDp.down, (q 100).1.dp, {}, {}⟩).2 = .ok .drop ∧
    (runPacket DemoDp.env ⟨DemoDp.down, (q 1000).1.dp, {}, {}⟩).2 = .ok .drop := by
  decide +kernel

/-! ### C81: the UE's address in an uplink PDR -/

theorem body_congr {ue : Bool} {l1 l2 : List PdrIE} {x y : PdrIE} (hd : displayPdr x = displayPdr y) (hc : createPdr ue x = createPdr ue y) :
    Act.each displayPdr (l1 ++ x :: l2) = Act.each displayPdr (l1 ++ y :: l2) ∧
    Act.each (createPdr ue) (l1 ++ x :: l2) = Act.each (createPdr ue) (l1 ++ y :: l2) := by
  induction l1 with
  | nil => exact ⟨by simp only [List.nil_append, Act.each, hd], by simp only [List.nil_append, Act.each, hc]⟩
  | cons z l ih => exact ⟨by simp only [List.cons_append, Act.each, ih.1], by simp only [List.cons_append, Act.each, ih.2]⟩

theorem uplink_ueip (p : List PdiChild) (hp : p.any (·.isFteid) = true) (pre post : List PdrChild) (ue : Bool)
    (hpre : ∀ x ∈ pre, ∀ c, x ≠ .pdi c) :
    displayPdr (PdrIE.ofChildren (pre ++ .pdi p :: post)) =
      displayPdr (PdrIE.ofChildren (pre ++ .pdi (p.filter (fun x => !x.isUeip)) :: post)) ∧
    createPdr ue (PdrIE.ofChildren (pre ++ .pdi p :: post)) =
      createPdr ue (PdrIE.ofChildren (pre ++ .pdi (p.filter (fun x => !x.isUeip)) :: post)) := by
  have x1 : pre.findSome? PdrChild.pdi? = none := by
    rw [List.findSome?_eq_none_iff]
    intro x hx
    have := hpre x hx
    cases x with
    | pdi c => exact absurd rfl (this c)
    | _ => rfl
  have hpdi : ∀ z, (PdrIE.ofChildren (pre ++ .pdi z :: post)).pdi = some (Pdi.ofChildren z) := by
    intro z
    show (List.findSome? PdrChild.pdi? _).map Pdi.ofChildren = _
    rw [fs_some (f := PdrChild.pdi?) rfl, x1]; rfl
  have hs : ∀ {β : Type} (f : PdiChild → Option β), (∀ a, f (.ueip a) = none) →
      p.findSome? f = (p.filter (fun x => !x.isUeip)).findSome? f := by
    intro β f hf
    rw [findSome_filter]
    intro x _ hx
    cases x with
    | ueip _ => exact hf _
    | _ => cases hx
  have hf : (Pdi.ofChildren p).fteid = (Pdi.ofChildren (p.filter (fun x => !x.isUeip))).fteid := hs _ (fun _ => rfl)
  have hsrc : (Pdi.ofChildren p).source = (Pdi.ofChildren (p.filter (fun x => !x.isUeip))).source := by
    show p.any _ = (p.filter _).any _
    rw [List.any_filter]
    refine congrArg p.any (funext fun x => ?_)
    cases x <;> rfl
  have hsome : ∃ o, (Pdi.ofChildren p).fteid = some o := by
    cases h : (Pdi.ofChildren p).fteid with
    | some o => exact ⟨o, rfl⟩
    | none =>
      exfalso
      have h' : p.findSome? PdiChild.fteid? = none := h
      rw [List.findSome?_eq_none_iff] at h'
      obtain ⟨x, hx, hxf⟩ := List.any_eq_true.1 hp
      have := h' x hx
      cases x with
      | fteid _ => cases this
      | _ => cases hxf
  have hsdf : (PdrIE.ofChildren (pre ++ .pdi p :: post)).sdf = (PdrIE.ofChildren (pre ++ .pdi (p.filter (fun x => !x.isUeip)) :: post)).sdf := by
    show (List.findSome? PdrChild.pdi? _).bind sdfOfChildren = (List.findSome? PdrChild.pdi? _).bind sdfOfChildren
    rw [fs_some (f := PdrChild.pdi?) rfl, fs_some (f := PdrChild.pdi?) rfl, x1]
    show (List.findSome? PdiChild.sdf? _).join = (List.findSome? PdiChild.sdf? _).join
    rw [hs _ (fun _ => rfl)]
  have ho : ∀ {β : Type} (f : PdrChild → Option β), (∀ g, f (.pdi g) = none) → ∀ z z',
      (pre ++ .pdi z :: post).findSome? f = (pre ++ .pdi z' :: post).findSome? f := by
    intro β f hf z z'
    rw [List.findSome?_append, List.findSome?_append, List.findSome?_cons, List.findSome?_cons, hf, hf]
  have hid : (PdrIE.ofChildren (pre ++ .pdi p :: post)).pdrId = (PdrIE.ofChildren (pre ++ .pdi (p.filter (fun x => !x.isUeip)) :: post)).pdrId := by
    exact congrArg Option.join (ho _ (fun _ => rfl) _ _)
  have hrefs : ∀ s i, pdrRefs s (PdrIE.ofChildren (pre ++ .pdi p :: post)) i =
      pdrRefs s (PdrIE.ofChildren (pre ++ .pdi (p.filter (fun x => !x.isUeip)) :: post)) i := by
    intro s i
    have h1 : (PdrIE.ofChildren (pre ++ .pdi p :: post)).ohr = (PdrIE.ofChildren (pre ++ .pdi (p.filter (fun x => !x.isUeip)) :: post)).ohr := by
      exact congrArg Option.join (ho _ (fun _ => rfl) _ _)
    have h2 : (PdrIE.ofChildren (pre ++ .pdi p :: post)).farId = (PdrIE.ofChildren (pre ++ .pdi (p.filter (fun x => !x.isUeip)) :: post)).farId := by
      exact congrArg Option.join (ho _ (fun _ => rfl) _ _)
    have h3 : (PdrIE.ofChildren (pre ++ .pdi p :: post)).qerId = (PdrIE.ofChildren (pre ++ .pdi (p.filter (fun x => !x.isUeip)) :: post)).qerId := by
      exact congrArg Option.join (ho _ (fun _ => rfl) _ _)
    have h4 : (PdrIE.ofChildren (pre ++ .pdi p :: post)).urrIds = (PdrIE.ofChildren (pre ++ .pdi (p.filter (fun x => !x.isUeip)) :: post)).urrIds := by
      simp only [PdrIE.ofChildren, urrIdsOfChildren]
      rw [fm_none rfl, fm_none rfl]
    unfold pdrRefs
    rw [h1, h2, h3, h4]
  constructor
  · funext s
    unfold displayPdr
    rw [hpdi, hpdi]
    simp only [hsrc]
  · unfold createPdr
    rw [hid]
    have hx : ∀ P, extractPdr ue (PdrIE.ofChildren (pre ++ .pdi p :: post)) P =
        extractPdr ue (PdrIE.ofChildren (pre ++ .pdi (p.filter (fun x => !x.isUeip)) :: post)) P := by
      intro P
      funext s
      obtain ⟨o, ho⟩ := hsome
      have ho' := hf.symm.trans ho
      have hps : ∀ i, pdrSdf (PdrIE.ofChildren (pre ++ .pdi p :: post)) i =
          pdrSdf (PdrIE.ofChildren (pre ++ .pdi (p.filter (fun x => !x.isUeip)) :: post)) i := by
        intro i; unfold pdrSdf; rw [hsdf]
      unfold extractPdr
      rw [hpdi, hpdi]
      simp only [ho, ho', hrefs, hps]
      cases o <;> rfl
    simp only [hx]

/-- **C81, negation for every request.** In a PDI with F-TEID, the UE IP Address makes no difference: removing it changes nothing the node
does, so nothing any packet experiences. -/
theorem C81_ue_address_ignored (n : Node) (a : Addr) (r : RawEst) (l1 l2 : List (List PdrChild)) (pre post : List PdrChild) (p : List PdiChild)
    (hpre : ∀ x ∈ pre, ∀ c, x ≠ .pdi c) (hp : p.any (·.isFteid) = true) :
    n.step (.establish a (r.withPdr l1 (pre ++ .pdi p :: post) l2).req) =
    n.step (.establish a (r.withPdr l1 (pre ++ .pdi (p.filter (fun x => !x.isUeip)) :: post) l2).req) := by
  have hb : establishBody n.ueip (r.withPdr l1 (pre ++ .pdi p :: post) l2).req =
      establishBody n.ueip (r.withPdr l1 (pre ++ .pdi (p.filter (fun x => !x.isUeip)) :: post) l2).req := by
    obtain ⟨h1, h2⟩ := uplink_ueip p hp pre post n.ueip hpre
    obtain ⟨c1, c2⟩ := body_congr (l1 := l1.map PdrIE.ofChildren) (l2 := l2.map PdrIE.ofChildren) h1 h2
    unfold establishBody
    simp only [RawEst.withPdr, RawEst.req, List.map_append, List.map_cons, c1, c2]
  show n.establish a _ = n.establish a _
  unfold Node.establish
  rw [hb]
  rfl

/-- The uplink PDR of UE 10.60.0.1. -/
def Demo.rawPdrUl : List PdrChild :=
  [.pdrId (some 1), .precedence 255, .pdi [.source (some 0), .fteid (some ⟨0x100, false, none⟩), .ueip (some { ipv4 := some 0x0A3C0001 })],
   .ohr (some 0), .farId (some 1), .qerId (some 1)]
/-- A packet in the UE's tunnel that claims to be from 10.60.0.99. -/
def Demo.spoofed : List U8 := DemoDp.gpdu [0, 0, 1, 0] (DemoDp.ip4h 32 17 [10, 60, 0, 99] [8, 8, 8, 8] ++ DemoDp.udp4)

/-- **C81, negation.** The uplink PDR says TEID 0x100 and UE address 10.60.0.1. A packet with that TEID whose source address is 10.60.0.99
is forwarded. -/
theorem C81_spoofed_forwarded :
    let q := Demo.nSvc0.step (.establish 1 (Demo.raw [Demo.rawFarUl] [Demo.rawPdrUl]).req)
    let s := runPacket DemoDp.env ⟨Demo.spoofed, q.1.dp, {}, {}⟩
    q.2 = .reply Demo.svcResp ∧ s.2 = .ok (.redirect 7) ∧ be32 s.1.frame 26 = 0x0A3C0063 := by
  decide +kernel

/-! ### C82: Source Interface -/

theorem pdi_source (p1 p2 : List PdiChild) (i j : Option U8) :
    Pdi.ofChildren (p1 ++ .source i :: p2) = Pdi.ofChildren (p1 ++ .source j :: p2) ∧
    sdfOfChildren (p1 ++ .source i :: p2) = sdfOfChildren (p1 ++ .source j :: p2) := by
  have hs : ∀ {β : Type} (f : PdiChild → Option β), (∀ a, f (.source a) = none) →
      (p1 ++ .source i :: p2).findSome? f = (p1 ++ .source j :: p2).findSome? f := by
    intro β f hf
    rw [List.findSome?_append, List.findSome?_append, List.findSome?_cons, List.findSome?_cons, hf, hf]
  constructor
  · unfold Pdi.ofChildren
    rw [hs _ (fun _ => rfl), hs _ (fun _ => rfl)]
    congr 1
    rw [List.any_append, List.any_append, List.any_cons, List.any_cons]
    rfl
  · unfold sdfOfChildren
    rw [hs _ (fun _ => rfl)]

/-- **C82, negation for every request.** Which Source Interface a PDI names (access, core, ...) makes no difference. -/
theorem C82_source_interface_ignored (n : Node) (a : Addr) (r : RawEst) (l1 l2 : List (List PdrChild)) (pre post : List PdrChild)
    (p1 p2 : List PdiChild) (i j : Option U8) :
    n.step (.establish a (r.withPdr l1 (pre ++ .pdi (p1 ++ .source i :: p2) :: post) l2).req) =
    n.step (.establish a (r.withPdr l1 (pre ++ .pdi (p1 ++ .source j :: p2) :: post) l2).req) := by
  rw [withPdr_congr (ofPdi_congr (pdi_source p1 p2 i j).1 (pdi_source p1 p2 i j).2)]

/-- **C82, negation.** A PDR for packets of UE 10.60.0.1 coming from the access side (Source Interface 0, without F-TEID) is applied to
packets to the UE coming from the core side. -/
theorem C82_wrong_side :
    let pdr := [PdrChild.pdrId (some 2), .pdi [.source (some 0), .ueip (some { ipv4 := some 0x0A3C0001 })], .farId (some 2), .qerId (some 1)]
    let q := Demo.nSvc0.step (.establish 1 (Demo.raw [Demo.rawFarDl] [pdr]).req)
    q.2 = .reply Demo.svcResp ∧ (runPacket DemoDp.env ⟨DemoDp.down, q.1.dp, {}, {}⟩).2 = .ok (.redirect 7) := by
  decide +kernel

end Eupf
