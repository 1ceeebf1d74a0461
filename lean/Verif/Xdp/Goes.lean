import Verif.Xdp.Tail
import Verif.Spec.Route
/- Runs that end normally, leaving the action counters alone. Models no code. -/
namespace Eupf

/-- From `s`, `m` ends with `a`, the frame `fr` and the tables `dp`; the action counters are as before. -/
def Goes {α : Type} (m : X α) (s : PS) (fr : List U8) (dp : BpfObjects) (a : α) : Prop :=
  ∃ st rt, SameActions s.st st ∧ m s = (⟨fr, dp, st, rt⟩, .ok a)

namespace Goes
variable {α β : Type} {s s' : PS} {fr : List U8} {dp : BpfObjects} {a : α}

theorem pure (a : α) (s : PS) : Goes (Pure.pure a) s s.frame s.dp a := ⟨s.st, s.rt, rfl, rfl⟩
theorem done {m : X α} (h : m s = (s, .ok a)) : Goes m s s.frame s.dp a := ⟨s.st, s.rt, rfl, h⟩
/-- continue elsewhere -/
theorem via {m m' : X α} (h : m s = m' s') (hs : SameActions s.st s'.st) (g : Goes m' s' fr dp a) : Goes m s fr dp a := by
  obtain ⟨st, rt, h1, h2⟩ := g
  exact ⟨st, rt, h1.trans hs, h.trans h2⟩
theorem eq {m m' : X α} (h : m s = m' s) (g : Goes m' s fr dp a) : Goes m s fr dp a := via h rfl g
theorem bind {m : X α} {k : α → X β} {b : β} {fr1 dp1} (h1 : Goes m s fr1 dp1 a)
    (h2 : ∀ st rt, Goes (k a) ⟨fr1, dp1, st, rt⟩ fr dp b) : Goes (m >>= k) s fr dp b := by
  obtain ⟨st, rt, g1, g2⟩ := h1
  obtain ⟨st', rt', g3, g4⟩ := h2 st rt
  exact ⟨st', rt', g3.trans g1, by rw [bind_run g2, g4]⟩
theorem count {f : UpfStat → UpfStat} (hf : ∀ x, (f x).actions = x.actions) : Goes (count f) s s.frame s.dp () :=
  ⟨f s.st, s.rt, hf s.st, rfl⟩
theorem countRt {f : RouteStat → RouteStat} : Goes (countRt f) s s.frame s.dp () := ⟨s.st, f s.rt, rfl, rfl⟩
theorem store {o : Nat} {bs : List U8} (h : o + bs.length ≤ s.frame.length) : Goes (store o bs) s (put s.frame o bs) s.dp () :=
  ⟨s.st, s.rt, rfl, store_eval s h⟩
theorem frame_eq {m : X α} {fr' : List U8} (h : Goes m s fr dp a) (e : fr = fr') : Goes m s fr' dp a := e ▸ h

end Goes

theorem put_append_right {a b bs : List U8} {k : Nat} (h : a.length = k) : put (a ++ b) k bs = a ++ bs ++ b.drop bs.length := by
  subst h
  unfold put
  rw [List.take_left]
  simp
theorem put_append_left {a b bs : List U8} {k : Nat} (h : k + bs.length ≤ a.length) : put (a ++ b) k bs = put a k bs ++ b := by
  unfold put
  rw [List.take_append_of_le_length (by omega), List.drop_append_of_le_length h, List.append_assoc, List.append_assoc, List.append_assoc]
theorem put_zero {a bs : List U8} : put a 0 bs = bs ++ a.drop bs.length := by
  unfold put; simp

theorem Goes.storeAt {s : PS} {pre r bs : List U8} {k : Nat} (hf : s.frame = pre ++ r) (hk : pre.length = k) (hb : bs.length ≤ r.length) :
    Goes (Eupf.store k bs) s (pre ++ bs ++ r.drop bs.length) s.dp () := by
  refine (Goes.store ?_).frame_eq ?_
  · rw [hf, List.length_append]; omega
  · rw [hf, put_append_right hk]

theorem macs (f : List U8) (h : 12 ≤ f.length) (smac dmac : Vector U8 6) :
    put (put f 6 smac.toList) 0 dmac.toList = dmac.toList ++ smac.toList ++ f.drop 12 := by
  rw [put_zero, List.append_assoc]
  congr 1
  unfold put
  rw [List.append_assoc, List.drop_append_of_le_length (by simp; omega)]
  simp

theorem applyRoute_goes (e : Env) (s : PS) (ans : FibAns) (f1 f2 f3) (h : 12 ≤ s.frame.length) :
    Goes (applyRoute e 0 ans f1 f2 f3) s (macRewrite s.frame ans) s.dp (routeAct e ans) := by
  unfold applyRoute
  cases ans with
  | ok i smac dmac =>
    refine Goes.bind Goes.countRt (fun st rt => ?_)
    refine Goes.bind (Goes.store (by simp; omega)) (fun st rt => ?_)
    refine Goes.bind (Goes.store (by simp only; rw [put_length] <;> simp <;> omega)) (fun st rt => ?_)
    refine (Goes.pure _ _).frame_eq ?_
    exact macs _ h _ _
  | fail rc =>
    simp only [routeAct, macRewrite]
    split
    · exact Goes.bind Goes.countRt (fun st rt => Goes.pure _ _)
    · exact Goes.bind Goes.countRt (fun st rt => Goes.pure _ _)

theorem routeIp4_goes (e : Env) (s : PS) (h : 34 ≤ s.frame.length) :
    Goes (routeIp4 e (some 0) (some 14)) s (macRewrite s.frame (e.fib (fibReq4 e s.frame))) s.dp (routeAct e (e.fib (fibReq4 e s.frame))) := by
  have : routeIp4 e (some 0) (some 14) s = applyRoute e 0 (e.fib (fibReq4 e s.frame)) (fun r => { r with ip4Ok := r.ip4Ok + 1 }) (fun r => { r with ip4Drop := r.ip4Drop + 1 })
    (fun r => { r with ip4Pass := r.ip4Pass + 1 }) s := by
    unfold routeIp4
    simp only [ptr]
    rw [bind_run (Act.pure_apply _ _), bind_run (ld8_eval s (by omega)), bind_run (ld8_eval s (by omega)), bind_run (ld16_eval s (by omega)), bind_run (ldBytes_eval s (by omega)), bind_run (ldBytes_eval s (by omega))]
    rw [bind_run (Act.pure_apply _ _), swap16_le]
    rfl
  exact Goes.eq this (applyRoute_goes e s _ _ _ _ (by omega))

theorem routeIp6_goes (e : Env) (s : PS) (h : 54 ≤ s.frame.length) :
    Goes (routeIp6 e (some 0) (some 14)) s (macRewrite s.frame (e.fib (fibReq6 e s.frame))) s.dp (routeAct e (e.fib (fibReq6 e s.frame))) := by
  have : routeIp6 e (some 0) (some 14) s = applyRoute e 0 (e.fib (fibReq6 e s.frame)) (fun r => { r with ip6Ok := r.ip6Ok + 1 }) (fun r => { r with ip6Drop := r.ip6Drop + 1 })
    (fun r => { r with ip6Pass := r.ip6Pass + 1 }) s := by
    unfold routeIp6
    simp only [ptr]
    rw [bind_run (Act.pure_apply _ _), bind_run (ld8_eval s (by omega)), bind_run (ld16_eval s (by omega)), bind_run (ldBytes_eval s (by omega)), bind_run (ldBytes_eval s (by omega))]
    rw [bind_run (Act.pure_apply _ _), swap16_le]
    rfl
  exact Goes.eq this (applyRoute_goes e s _ _ _ _ (by omega))

/-! ### tunnel headers -/

/-- the 20 octets of the outer header, with checksum -/
def outerIp (saddr daddr : U32) (tos : U8) (totLen : U16) : List U8 :=
  put (fillIpHeader saddr daddr tos totLen) 10 (bytes16 (ipv4Csum (fillIpHeader saddr daddr tos totLen)))

/-- the encapsulated frame -/
def encapFrame (f : List U8) (ipLen : U16) (saddr daddr : U32) (tos qfi : U8) (teid : U32) : List U8 :=
  f.take 12 ++ [8, 0] ++ outerIp saddr daddr tos (ipLen + 44) ++ fillUdpHeader 2152 (ipLen + 24) ++ fillGtpHeader teid (ipLen + 8)
    ++ fillGtpExt ++ fillGtpPsc qfi 0 ++ f.drop 14

/-- the length of the packet to be encapsulated, as written in its header -/
def ctxLen (c : Ctx) (f : List U8) : Option U16 :=
  match c.ip4, c.ip6 with
  | some ip, _ => some (be16 f (ip + 2))
  | none, some ip => some (be16 f (ip + 4) + 40)
  | none, none => none

theorem bytes16_swap (x : U16) : bytes16 (swap16 x) = [x.extractLsb' 8 8, x.extractLsb' 0 8] := by
  conv => lhs; rw [cat16 x]
  rw [swap16_cat, bytes16_cat]
theorem bytes32_swap (x : U32) : bytes32 (swap32 x) = [x.extractLsb' 24 8, x.extractLsb' 16 8, x.extractLsb' 8 8, x.extractLsb' 0 8] := by
  conv => lhs; rw [cat32 x]
  rw [swap32_cat, bytes32_cat]

theorem addHeaders_goes (e : Env) (s : PS) (c : Ctx) (saddr daddr : U32) (tos qfi : U8) (teid : U32) {n : U16} (hn : ctxLen c s.frame = some n)
    (h4 : ∀ o, c.ip4 = some o → o + 4 ≤ s.frame.length) (h6 : ∀ o, c.ip6 = some o → o + 6 ≤ s.frame.length) (hl : 14 ≤ s.frame.length) :
    match e.headroom with
    | none => Goes (addGtpHeaders e c saddr daddr tos qfi teid) s s.frame s.dp (c, false)
    | some _ => Goes (addGtpHeaders e c saddr daddr tos qfi teid) s (encapFrame s.frame n saddr daddr tos qfi teid) s.dp
        ({ c with data := 0, eth := some 0, ip4 := some 14, ip6 := none, udp := some 34, gtp := some 42 }, true) := by
  have hlen : ∀ k : Option U16 → X (Ctx × Bool), ((match c.ip4, c.ip6 with
    | some ip, _ => do return some (swap16 (← ld16 (ip + 2)))
    | none, some ip => do return some (swap16 (← ld16 (ip + 4)) + 40)
    | none, none => pure none : X (Option U16)) >>= k) s = k (some n) s := by
    intro k
    apply bind_run
    rw [← hn]
    unfold ctxLen
    rcases hc4 : c.ip4 with _ | o4
    · rcases hc6 : c.ip6 with _ | o6
      · rfl
      · simp only
        rw [bind_run (ld16_eval s (by have := h6 _ hc6; omega)), swap16_le]; rfl
    · simp only
      rw [bind_run (ld16_eval s (by have := h4 _ hc4; omega)), swap16_le]; rfl
  cases hh : e.headroom with
  | none =>
    simp only
    unfold addGtpHeaders
    refine Goes.eq (hlen _) ?_
    simp only [hh]
    exact Goes.pure _ _
  | some g =>
    simp only
    have hg : g.toList.length = 44 := by simp
    unfold addGtpHeaders
    refine Goes.eq (hlen _) ?_
    simp only [hh]
    refine Goes.via (bind_run (Act.modify_apply _ _)) rfl ?_
    refine Goes.via (bind_run (frameLen_eval _)) rfl ?_
    rw [if_neg (by simp; omega)]
    refine Goes.via (bind_run (ldBytes_eval _ (by simp; omega))) rfl ?_
    have e1 : slice (g.toList ++ s.frame) 44 14 = s.frame.take 14 := by
      unfold slice
      rw [List.drop_append_of_le_length (by omega), List.drop_of_length_le (by omega)]; rfl
    simp only [e1]
    have hr : ∃ r : List U8, r = (g.toList ++ s.frame).drop 14 ∧ 44 ≤ r.length ∧ r.drop 44 = s.frame.drop 14 := by
      refine ⟨_, rfl, by simp; omega, ?_⟩
      rw [List.drop_drop, List.drop_append, hg]
      simp [List.drop_of_length_le, hg]
    obtain ⟨r, hr1, hr2, hr3⟩ := hr
    have t14 : (s.frame.take 14).length = 14 := by simp; omega
    have t12 : (s.frame.take 12).length = 12 := by simp; omega
    refine Goes.bind ((Goes.store (by simp only [t14]; simp; omega)).frame_eq (fr' := s.frame.take 14 ++ r) ?_) (fun st rt => ?_)
    · simp only; rw [put_zero, t14, hr1]
    refine Goes.bind ((Goes.store (by simp only [List.length_append, t14, bytes16_length]; omega)).frame_eq (fr' := (s.frame.take 12 ++ [8, 0]) ++ r) ?_) (fun st rt => ?_)
    · simp only
      rw [put_append_left (by rw [t14]; simp)]
      congr 1
      unfold put
      rw [bytes16_length, List.drop_of_length_le (by omega), List.append_nil, List.take_take]
      rfl
    have hp0 : (s.frame.take 12 ++ [8, 0] : List U8).length = 14 := by simp only [List.length_append, t12]; rfl
    generalize hpre : (s.frame.take 12 ++ [8, 0] : List U8) = pre at hp0
    generalize hip : fillIpHeader saddr daddr tos (n + 44) = ip
    have lip : ip.length = 20 := by rw [← hip]; rfl
    have ludp : (fillUdpHeader 2152 (n + 24)).length = 8 := rfl
    have lgtp : (fillGtpHeader teid (n + 8)).length = 8 := rfl
    refine Goes.bind ((Goes.storeAt rfl hp0 (by omega))) (fun st rt => ?_)
    refine Goes.bind ((Goes.storeAt rfl (by rw [List.length_append]; omega) (by rw [List.length_drop]; omega))) (fun st rt => ?_)
    refine Goes.bind ((Goes.storeAt rfl (by simp only [List.length_append]; omega) (by simp only [List.length_drop]; omega))) (fun st rt => ?_)
    have lext : fillGtpExt.length = 4 := rfl
    have lpsc : (fillGtpPsc qfi 0).length = 4 := rfl
    refine Goes.bind ((Goes.storeAt rfl (by simp only [List.length_append]; omega) (by simp only [List.length_drop]; omega))) (fun st rt => ?_)
    refine Goes.bind ((Goes.storeAt rfl (by simp only [List.length_append]; omega) (by simp only [List.length_drop]; omega))) (fun st rt => ?_)
    have hd : (((((r.drop ip.length).drop (fillUdpHeader 2152 (n + 24)).length).drop (fillGtpHeader teid (n + 8)).length).drop fillGtpExt.length).drop (fillGtpPsc qfi 0).length)
      = s.frame.drop 14 := by
      simp only [List.drop_drop, lip, ludp, lgtp]; exact hr3
    rw [hd]
    have hs : slice (pre ++ ip ++ fillUdpHeader 2152 (n + 24) ++ fillGtpHeader teid (n + 8) ++ fillGtpExt ++ fillGtpPsc qfi 0 ++ s.frame.drop 14) 14 20 = ip := by
      unfold slice
      simp only [List.append_assoc]
      rw [← hp0, List.drop_left, ← lip, List.take_left]
    refine Goes.via (bind_run (ldBytes_eval _ ?_)) rfl ?_
    · simp only [List.length_append]; omega
    simp only [hs]
    refine Goes.bind ((Goes.store ?_).frame_eq (fr' := encapFrame s.frame n saddr daddr tos qfi teid) ?_) (fun st rt => ?_)
    · simp only [List.length_append, bytes16_length]; omega
    · simp only
      unfold encapFrame outerIp
      rw [hpre, hip]
      simp only [List.append_assoc]
      conv => lhs; rw [← List.append_assoc]
      rw [put_append_left (by simp only [List.length_append, bytes16_length]; omega)]
      rw [← List.append_assoc pre]
      congr 1
      unfold put
      rw [List.take_append, List.drop_append]
      simp [hp0, List.take_of_length_le, List.drop_of_length_le]
    · exact Goes.pure _ _

theorem outerIp_length (saddr daddr : U32) (tos : U8) (n : U16) : (outerIp saddr daddr tos n).length = 20 := rfl
theorem encapFrame_length (f : List U8) (n : U16) (saddr daddr : U32) (tos qfi : U8) (teid : U32) (h : 14 ≤ f.length) :
    (encapFrame f n saddr daddr tos qfi teid).length = f.length + 44 := by
  unfold encapFrame
  simp only [List.length_append, outerIp_length, List.length_take, List.length_drop]
  simp [fillUdpHeader, fillGtpHeader, fillGtpExt, fillGtpPsc]
  omega

theorem send_goes (e : Env) (s : PS) (c : Ctx) (daddr : U32) (tos qfi : U8) (teid : U32) {n : U16} (hn : ctxLen c s.frame = some n)
    (h4 : ∀ o, c.ip4 = some o → o + 4 ≤ s.frame.length) (h6 : ∀ o, c.ip6 = some o → o + 6 ≤ s.frame.length) (hl : 14 ≤ s.frame.length) :
    if e.headroom = none then Goes (sendToGtpTunnel e c daddr tos qfi teid) s s.frame s.dp .aborted
    else Goes (sendToGtpTunnel e c daddr tos qfi teid) s
      (macRewrite (encapFrame s.frame n e.n3 daddr tos qfi teid) (e.fib (fibReq4 e (encapFrame s.frame n e.n3 daddr tos qfi teid)))) s.dp
      (routeAct e (e.fib (fibReq4 e (encapFrame s.frame n e.n3 daddr tos qfi teid)))) := by
  have h := addHeaders_goes e s c e.n3 daddr tos qfi teid hn h4 h6 hl
  unfold sendToGtpTunnel
  cases hh : e.headroom with
  | none =>
    rw [hh] at h; simp only at h
    rw [if_pos rfl]
    exact Goes.bind h (fun st rt => Goes.pure _ _)
  | some g =>
    rw [hh] at h; simp only at h
    rw [if_neg (by simp)]
    refine Goes.bind h (fun st rt => ?_)
    refine Goes.bind (Goes.count (fun _ => rfl)) (fun st rt => ?_)
    exact routeIp4_goes e _ (by simp only; rw [encapFrame_length _ _ _ _ _ _ _ hl]; omega)

end Eupf
