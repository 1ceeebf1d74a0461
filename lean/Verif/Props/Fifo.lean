import Verif.Spec.Fifo
import Verif.Props.Chosen
import Verif.Props.TeidDistinct
import Verif.Props.Requests
/-
C104: TEIDs and addresses that come back to the pools are given last.
-/
namespace Eupf
open Act

/-! ### a pool as a queue -/

/-- A pool of the node: TEIDs or addresses. -/
structure Pool (α : Type) where
  free : Option ResourceManager → List α
  /-- which PDRs may take one -/
  asks : PdrIE → Bool
  teid : ∀ s p rm, free (allocTeid s p rm).1 = free rm ∨ ∃ t, free rm = t :: free (allocTeid s p rm).1
  ip : ∀ s rm, free (allocIp s rm).1 = free rm ∨ ∃ t, free rm = t :: free (allocIp s rm).1
  askT : ∀ ie, asks ie = false → ie.asksTeid.isSome = true → ∀ s p rm, free (allocTeid s p rm).1 = free rm
  askI : ∀ ie, asks ie = false → ie.asksIp = true → ∀ s rm, free (allocIp s rm).1 = free rm
  release : ∀ o s r, ∃ back, free (some { r with fteidm := r.fteidm.release o s }) = free (some r) ++ back
  releaseIp : ∀ s r, ∃ back, free (some { r with ipam := r.ipam.release s }) = free (some r) ++ back

theorem fifo_allocTeid_ips (s : U64) (p : U32) (rm : Option ResourceManager) : freeIps (allocTeid s p rm).1 = freeIps rm := by
  cases rm <;> rfl
theorem fifo_allocIp_teids (s : U64) (rm : Option ResourceManager) : freeTeids (allocIp s rm).1 = freeTeids rm := by
  cases rm <;> rfl

def teids : Pool U32 where
  free := freeTeids
  asks := (·.asksTeid.isSome)
  teid s p rm := by
    cases rm with
    | none => exact .inl rfl
    | some r =>
      cases hf : r.fteidm.freeTEIDs with
      | nil => exact .inl (by simp [allocTeid, FTEIDM.allocate, freeTeids, hf])
      | cons t l => exact .inr ⟨t, by simp [allocTeid, FTEIDM.allocate, freeTeids, hf]⟩
  ip s rm := .inl (fifo_allocIp_teids s rm)
  askT ie h1 h2 := by rw [h1] at h2; cases h2
  askI ie h1 h2 s rm := fifo_allocIp_teids s rm
  release o s r := by
    simp only [FTEIDM.release, freeTeids, Option.elim_some]
    split
    · exact ⟨_, rfl⟩
    · exact ⟨[], by simp⟩
  releaseIp s r := ⟨[], by simp [freeTeids]⟩

def addresses : Pool Ip4 where
  free := freeIps
  asks := (·.asksIp)
  teid s p rm := .inl (fifo_allocTeid_ips s p rm)
  ip s rm := by
    cases rm with
    | none => exact .inl rfl
    | some r =>
      cases hf : r.ipam.freeIPs with
      | nil => exact .inl (by simp [allocIp, IPAM.allocate, freeIps, hf])
      | cons t l => exact .inr ⟨t, by simp [allocIp, IPAM.allocate, freeIps, hf]⟩
  askT ie h1 h2 s p rm := fifo_allocTeid_ips s p rm
  askI ie h1 h2 := by rw [h1] at h2; cases h2
  release o s r := ⟨[], by simp [freeIps]⟩
  releaseIp s r := by
    simp only [IPAM.release, freeIps, Option.elim_some]
    split
    · exact ⟨_, rfl⟩
    · exact ⟨[], by simp⟩

section
variable {α : Type} (P : Pool α)

/-- Since the pool was `F`, at most `k` were taken from the front, and some have come back at the end. -/
def Queue (F : List α) (k : Nat) (rm : Option ResourceManager) : Prop :=
  ∃ taken back, F ++ back = taken ++ P.free rm ∧ taken.length ≤ k

variable {P}

theorem Queue.mono {F : List α} {k l : Nat} {rm} (h : Queue P F k rm) (hkl : k ≤ l) : Queue P F l rm := by
  obtain ⟨t, b, e, hk⟩ := h; exact ⟨t, b, e, Nat.le_trans hk hkl⟩
theorem Queue.same {F : List α} {k : Nat} {rm rm'} (h : Queue P F k rm) (e : P.free rm' = P.free rm) : Queue P F k rm' := by
  obtain ⟨t, b, e', hk⟩ := h; exact ⟨t, b, by rw [e', e], hk⟩
theorem Queue.take {F : List α} {k : Nat} {rm rm'} {x : α} (h : Queue P F k rm) (e : P.free rm = x :: P.free rm') : Queue P F (k + 1) rm' := by
  obtain ⟨t, b, e', hk⟩ := h
  exact ⟨t ++ [x], b, by rw [e', e]; simp, by simp; exact hk⟩
theorem Queue.give {F : List α} {k : Nat} {rm rm'} {l : List α} (h : Queue P F k rm) (e : P.free rm' = P.free rm ++ l) : Queue P F k rm' := by
  obtain ⟨t, b, e', hk⟩ := h
  exact ⟨t, b ++ l, by rw [← List.append_assoc, e', e, List.append_assoc], hk⟩

variable (P)
/-- The action takes at most `c`. -/
def Takes {β : Type} (c : Nat) (m : Act HS β) : Prop := ∀ F k s, Queue P F k s.rm → Queue P F (k + c) (m s).1.rm
variable {P}

theorem Takes.bind {β γ : Type} {c d : Nat} {m : Act HS β} {f : β → Act HS γ} (h1 : Takes P c m) (h2 : ∀ b, Takes P d (f b)) : Takes P (c + d) (m >>= f) := by
  intro F k s h
  show Queue P F _ (Act.bind m f s).1.rm
  unfold Act.bind
  have g := h1 F k s h
  rcases hm : m s with ⟨s1, r⟩
  rw [hm] at g
  cases r with
  | ok b => simp only []; have := h2 b F _ s1 g; rwa [Nat.add_assoc] at this
  | err => exact g.mono (by omega)
  | panic => exact g.mono (by omega)

theorem Takes.rm {β : Type} {m : Act HS β} (h : ∀ s, (m s).1.rm = s.rm) : Takes P 0 m := by
  intro F k s hq
  rw [h]; exact hq
theorem Takes.mono {β : Type} {m : Act HS β} {c d : Nat} (h : Takes P c m) (hcd : c ≤ d) : Takes P d m :=
  fun F k s hq => (h F k s hq).mono (by omega)
theorem Takes.each {β : Type} {f : β → Act HS Unit} {q : β → Bool} : ∀ {l : List β}, (∀ x ∈ l, Takes P (if q x then 1 else 0) (f x)) → Takes P (l.filter q).length (Act.each f l)
  | [], _ => Takes.rm fun _ => rfl
  | x :: l, h => by
    have := Takes.bind (h x (by simp)) (fun _ : Unit => Takes.each (l := l) fun y hy => h y (by simp [hy]))
    refine Takes.mono this ?_
    by_cases hx : q x = true
    · simp only [if_pos hx, List.filter_cons_of_pos hx, List.length_cons]; omega
    · simp only [if_neg hx, List.filter_cons_of_neg hx]; omega
theorem Takes.each0 {β : Type} {f : β → Act HS Unit} {l : List β} (h : ∀ x ∈ l, Takes P 0 (f x)) : Takes P 0 (Act.each f l) := by
  have := Takes.each (q := fun _ => false) (l := l) (P := P) (f := f) (fun x hx => h x hx)
  exact Takes.mono this (by simp)

theorem extractPdr_takes (ue : Bool) (ie : PdrIE) (p : SPdr) : Takes P (if P.asks ie then 1 else 0) (extractPdr ue ie p) := by
  intro F k s h
  have same : Queue P F (k + if P.asks ie then 1 else 0) s.rm := h.mono (by omega)
  have alT : ie.asksTeid.isSome = true → ∀ x y, Queue P F (k + if P.asks ie then 1 else 0) (allocTeid x y s.rm).1 := by
    intro asks x y
    by_cases ha : P.asks ie = true
    · rw [if_pos ha]
      rcases P.teid x y s.rm with e | ⟨t, e⟩
      · exact (h.same e).mono (by omega)
      · exact h.take e
    · rw [if_neg ha]
      exact h.same (P.askT ie (by simpa using ha) asks x y s.rm)
  have alI : ie.asksIp = true → ∀ x, Queue P F (k + if P.asks ie then 1 else 0) (allocIp x s.rm).1 := by
    intro asks x
    by_cases ha : P.asks ie = true
    · rw [if_pos ha]
      rcases P.ip x s.rm with e | ⟨t, e⟩
      · exact (h.same e).mono (by omega)
      · exact h.take e
    · rw [if_neg ha]
      exact h.same (P.askI ie (by simpa using ha) asks x s.rm)
  generalize (k + if P.asks ie then 1 else 0) = c at same alT alI ⊢
  unfold extractPdr
  simp only []
  split
  · exact same
  · rename_i pdi hpdi
    split
    · exact same
    · split
      · exact same
      · rename_i f hf
        unfold pdrFteid
        split
        · rename_i hch
          have asks : ie.asksTeid.isSome = true := by
            unfold PdrIE.asksTeid; rw [hpdi]; obtain ⟨a, b⟩ := pdi; simp only at hf; rw [hf]; simp [hch]
          split
          · exact same
          · have := alT asks s.sess.remoteSEID p.pdrId
            rcases hx : allocTeid s.sess.remoteSEID p.pdrId s.rm with ⟨rm, r⟩
            rw [hx] at this
            cases r with
            | none => exact this
            | some t => simp only []; split <;> exact this
        · exact same
      · rename_i hf
        split
        · exact same
        · rename_i u hu
          unfold pdrUeIp
          by_cases hb : (ue && u.chv4) = true
          · have hch : u.chv4 = true := by simp at hb; exact hb.2
            have asks : ie.asksIp = true := by
              unfold PdrIE.asksIp; rw [hpdi]; obtain ⟨a, b⟩ := pdi; simp only at hf hu; rw [hf, hu]; exact hch
            have := alI asks s.sess.remoteSEID
            rcases hx : allocIp s.sess.remoteSEID s.rm with ⟨rm, r⟩
            rw [hx] at this
            simp only [if_pos hb, hx]
            cases r <;> (simp only []; first | exact this | (split <;> exact this))
          · simp only [if_neg hb]
            split <;> exact same
        · exact same

theorem Takes.rf {β : Type} {m : Act HS β} (h : ∀ s, RuleFrame s (m s).1) : Takes P 0 m := Takes.rm fun s => (h s).rm

theorem applyPdr_takes (p : SPdr) : Takes P 0 (applyPdr p) := Takes.rm fun s => by
  obtain ⟨dp, e⟩ := applyPdr_frame p s; rw [e]

theorem createPdr_takes (ue : Bool) (ie : PdrIE) : Takes P (if P.asks ie then 1 else 0) (createPdr ue ie) := by
  unfold createPdr
  cases ie.pdrId with
  | none => exact Takes.mono (Takes.rm fun _ => rfl) (Nat.zero_le _)
  | some id =>
    exact Takes.bind (d := 0) (extractPdr_takes ue ie _) fun _ => Takes.bind (c := 0) (d := 0) (Takes.rm fun _ => rfl) fun _ =>
      Takes.bind (c := 0) (d := 0) (applyPdr_takes _) fun _ => Takes.rm fun _ => rfl

theorem updatePdr_takes (ue : Bool) (ie : PdrIE) : Takes P (if P.asks ie then 1 else 0) (updatePdr ue ie) := by
  unfold updatePdr
  cases ie.pdrId with
  | none => exact Takes.mono (Takes.rm fun _ => rfl) (Nat.zero_le _)
  | some id =>
    have : Takes P (0 + ((if P.asks ie then 1 else 0) + 0)) _ :=
      Takes.bind (c := 0) (m := (Act.get : Act HS HS)) (Takes.rm fun _ => rfl) fun s => Takes.bind (d := 0) (extractPdr_takes ue ie (s.sess.getPdr (id.zeroExtend 32))) fun p =>
        Takes.bind (c := 0) (d := 0) (m := Act.modify (fun s => { s with sess := s.sess.putPdr (id.zeroExtend 32) p })) (Takes.rm fun _ => rfl) fun _ => applyPdr_takes p
    rwa [Nat.zero_add] at this

theorem releaseTeids_takes (ord : Orders) : Takes P 0 (releaseTeids ord) := by
  intro F k s h
  unfold releaseTeids
  split
  · exact h
  · rename_i r hr
    obtain ⟨back, e⟩ := P.release ord.teids s.sess.remoteSEID r
    exact Queue.give (l := back) h (by rw [hr]; exact e)

theorem deletePdr_takes (ord : Orders) (p : SPdr) : Takes P 0 (deletePdr ord p) := by
  unfold deletePdr
  refine Takes.bind (c := 0) (d := 0) (Takes.rm fun s => ?_) fun _ => ?_
  · obtain ⟨_, _, e⟩ := deletePdrEntry_frame p s; rw [e]
  · split
    · exact releaseTeids_takes ord
    · exact Takes.rm fun _ => rfl

theorem removePdr_takes (ord : Orders) (id : Option U16) : Takes P 0 (removePdr ord id) := by
  unfold removePdr
  refine Takes.bind (c := 0) (d := 0) (m := (Act.get : Act HS HS)) (Takes.rm fun _ => rfl) fun s => ?_
  simp only []
  split
  · exact Takes.rm fun _ => rfl
  · exact Takes.bind (c := 0) (d := 0) (Takes.rm fun _ => rfl) fun _ => deletePdr_takes ord _

theorem Takes.ignore {m : Act HS Unit} (h : Takes P 0 m) : Takes P 0 (Act.ignore m) := by
  intro F k s hq
  rw [ignore_fst]; exact h F k s hq

theorem displayPdr_takes (ie : PdrIE) : Takes P 0 (displayPdr ie) := Takes.rm fun s => by
  unfold displayPdr
  split <;> (try split) <;> rfl

/-- How many PDRs may take one. -/
def Pool.count (P : Pool α) (l : List PdrIE) : Nat := (l.filter P.asks).length

theorem pdrs_takes (ue : Bool) (l : List PdrIE) : Takes P (P.count l) (Act.each (createPdr ue) l) := Takes.each fun ie _ => createPdr_takes ue ie
theorem updates_takes (ue : Bool) (l : List PdrIE) : Takes P (P.count l) (Act.each (updatePdr ue) l) := Takes.each fun ie _ => updatePdr_takes ue ie

theorem establishBody_takes (ue : Bool) (r : EstReq) : Takes P (P.count r.createPdr) (establishBody ue r) := by
  unfold establishBody
  have : Takes P (0 + (0 + (0 + (0 + P.count r.createPdr)))) _ :=
    Takes.bind (Takes.each0 (l := r.createPdr) fun ie _ => displayPdr_takes ie) fun _ =>
      Takes.bind (Takes.each0 (l := r.createFar) fun ie _ => Takes.rf (createFar_rf ie)) fun _ =>
        Takes.bind (Takes.each0 (l := r.createQer) fun ie _ => Takes.rf (createQer_rf ie)) fun _ =>
          Takes.bind (Takes.each0 (l := r.createUrr) fun ie _ => Takes.rf (createUrr_rf ie)) fun _ => pdrs_takes ue r.createPdr
  simp only [Nat.zero_add] at this
  exact this

theorem modifyBody_takes (ue : Bool) (ord : Orders) (r : ModReq) : Takes P (P.count r.createPdr + P.count r.updatePdr) (modifyBody ue ord r) := by
  unfold modifyBody
  have : Takes P (0 + (0 + (0 + (0 + (0 + (0 + (0 + (0 + (0 + (0 + (0 + (P.count r.createPdr + (P.count r.updatePdr + 0))))))))))))) _ :=
    Takes.bind (Takes.each0 (l := r.createPdr) fun ie _ => displayPdr_takes ie) fun _ =>
    Takes.bind (Takes.each0 (l := r.updatePdr) fun ie _ => displayPdr_takes ie) fun _ =>
    Takes.bind (Takes.each0 (l := r.createFar) fun ie _ => Takes.rf (createFar_rf ie)) fun _ =>
    Takes.bind (Takes.each0 (l := r.updateFar) fun ie _ => Takes.rf (updateFar_rf ie)) fun _ =>
    Takes.bind (Takes.each0 (l := r.removeFar) fun ie _ => Takes.rf (removeFar_rf ie)) fun _ =>
    Takes.bind (Takes.each0 (l := r.createQer) fun ie _ => Takes.rf (createQer_rf ie)) fun _ =>
    Takes.bind (Takes.each0 (l := r.updateQer) fun ie _ => Takes.rf (updateQer_rf ie)) fun _ =>
    Takes.bind (Takes.each0 (l := r.removeQer) fun ie _ => Takes.rf (removeQer_rf ie)) fun _ =>
    Takes.bind (Takes.each0 (l := r.createUrr) fun ie _ => Takes.rf (createUrr_rf ie)) fun _ =>
    Takes.bind (Takes.each0 (l := r.updateUrr) fun ie _ => Takes.rf (updateUrr_rf ie)) fun _ =>
    Takes.bind (Takes.each0 (l := r.removeUrr) fun ie _ => Takes.rf (removeUrr_rf ie)) fun _ =>
    Takes.bind (pdrs_takes ue r.createPdr) fun _ => Takes.bind (updates_takes ue r.updatePdr) fun _ => Takes.each0 (l := r.removePdr) fun id _ => removePdr_takes ord id
  simp only [Nat.zero_add, Nat.add_zero] at this
  exact this

theorem deleteBody_takes (ord : Orders) (sess : Session) : Takes P 0 (deleteBody ord sess) := by
  unfold deleteBody
  exact Takes.bind (c := 0) (d := 0) (Takes.each0 fun e _ => deletePdr_takes ord e.2) fun _ =>
    Takes.bind (c := 0) (d := 0) (Takes.each0 fun e _ => Takes.rf (dropFar_rf e)) fun _ =>
      Takes.bind (c := 0) (d := 0) (Takes.each0 fun e _ => Takes.rf (dropQer_rf e)) fun _ => Takes.each0 fun e _ => Takes.rf (dropUrr_rf e)

theorem deleteSessionBody_takes (ord : Orders) (sess : Session) : Takes P 0 (deleteSessionBody ord sess) := by
  unfold deleteSessionBody
  exact Takes.bind (c := 0) (d := 0) (Takes.each0 fun e _ => Takes.ignore (Takes.rf (dropFar_rf e))) fun _ =>
    Takes.bind (c := 0) (d := 0) (Takes.each0 fun e _ => Takes.ignore (Takes.rf (dropQer_rf e))) fun _ => Takes.each0 fun e _ => Takes.ignore (deletePdr_takes ord e.2)

theorem dropSessions_queue (ord : Orders) {F : List α} {k : Nat} : ∀ (l : List (U64 × Session)) (rm : Option ResourceManager) (dp : BpfObjects),
    Queue P F k rm → Queue P F k (dropSessions ord l rm dp).1
  | [], _, _, h => h
  | (i, sess) :: l, rm, dp, h => by
    have h1 := deleteSessionBody_takes (P := P) ord sess F k ⟨sess, GoMap.empty, rm, dp, [], []⟩ h
    unfold dropSessions
    simp only []
    split
    · exact h1
    · exact dropSessions_queue ord l _ _ h1

/-- How many PDRs of the request may take one. -/
def Pool.asked (P : Pool α) : Ev → Nat
  | .establish _ r => P.count r.createPdr
  | .modify _ r _ => P.count r.createPdr + P.count r.updatePdr
  | _ => 0

theorem step_queue {n : Node} {F : List α} {k : Nat} (e : Ev) (h : Queue P F k n.rm) : Queue P F (k + P.asked e) (n.step e).1.rm := by
  by_cases hm : e.isNodeMsg = true
  · rw [(C05_association_messages n 0 0 e hm).2.2]; exact h.mono (by omega)
  cases e with
  | establish a r =>
    show Queue P F _ (n.establish a r).1.rm
    cases establish_cases n a r with
    | refused c hcc he => rw [he]; exact h.mono (by omega)
    | ran remote as hs' res hid hcp ha hbody hl hrem he =>
      have := establishBody_takes (P := P) n.ueip r F k (n.hs (Session.new (as.nextSessionID + 1) remote)) h
      rw [hbody] at this
      rw [he]
      cases res <;> exact this
  | modify a r ord =>
    show Queue P F _ (n.modify a r ord).1.rm
    cases modify_cases n a r ord with
    | refused c x hcc hs he => rw [he]; exact h.mono (by omega)
    | ran as sess hs' res ha hsess hbody hl hrem he =>
      have := modifyBody_takes (P := P) n.ueip ord r F k (n.hs (sess.setRemote r.cpFseid)) h
      rw [hbody] at this
      rw [he]
      cases res <;> exact this
  | delete a r ord =>
    show Queue P F _ (n.delete a r ord).1.rm
    cases delete_cases n a r ord with
    | refused c hcc hs he => rw [he]; exact h.mono (by omega)
    | ran as sess hs' res ha hsess hbody he =>
      have := deleteBody_takes (P := P) ord sess F k (n.hs sess) h
      rw [hbody] at this
      rw [he]
      cases res with
      | err => exact this
      | panic => exact this
      | ok u =>
        show Queue P F k (releaseResources ord r.seid hs'.rm)
        cases hrm : hs'.rm with
        | none => rw [hrm] at this; exact this
        | some m =>
          rw [hrm] at this
          obtain ⟨b1, e1⟩ := P.release ord.teids r.seid m
          obtain ⟨b2, e2⟩ := P.releaseIp r.seid { m with fteidm := m.fteidm.release ord.teids r.seid }
          exact Queue.give (Queue.give this e1) e2
  | peerLost a ord =>
    show Queue P F _ (n.deleteAssociation a ord).1.rm
    unfold Node.deleteAssociation
    split
    · exact h
    · rename_i as has
      have := dropSessions_queue (P := P) ord (F := F) (k := k) (ord.sessions.run as.sessions.entries) n.rm n.dp h
      split <;> (rename_i hd; rw [hd] at this; exact this)
  | setConfig u => exact h
  | assocSetup => exact absurd rfl hm
  | assocSetupResp => exact absurd rfl hm
  | assocUpdate => exact absurd rfl hm
  | heartbeatReq => exact absurd rfl hm
  | heartbeatResp => exact absurd rfl hm

theorem hist_queue {n n2 : Node} {h : List (Ev × Outcome)} (H : Hist n h n2) : Queue P (P.free n.rm) (h.map (fun x => P.asked x.1)).sum n2.rm := by
  induction H with
  | init => exact ⟨[], [], by simp, Nat.le_refl _⟩
  | step e _ _ ih =>
    have := step_queue e ih
    simp only [List.map_cons, List.sum_cons]
    exact this.mono (by omega)
  | traffic _ _ ih => exact ih

/-- Who was not in the pool comes after all that were. -/
theorem Queue.late {F : List α} {k c : Nat} {rm : Option ResourceManager} {x : α} {pre rest : List α} (h : Queue P F k rm) (hx : x ∉ F) (hp : P.free rm = pre ++ rest) (hm : x ∈ pre)
    (hc : pre.length ≤ c) : F.length < k + c := by
  obtain ⟨taken, back, e, hk⟩ := h
  obtain ⟨i, hi, hxi⟩ := List.getElem_of_mem hm
  have hlt : i < pre.length := hi
  have h1 : (F ++ back)[taken.length + i]? = some x := by
    rw [e, List.getElem?_append_right (by omega), Nat.add_sub_cancel_left, hp, List.getElem?_append_left hlt, List.getElem?_eq_getElem hi, hxi]
  apply Classical.byContradiction
  intro hge
  rw [List.getElem?_append_left (by omega)] at h1
  exact hx (List.mem_of_getElem? h1)

end

/-! ### what is reported was taken from the front -/

theorem created_front {ue : Bool} : ∀ (l : List PdrIE) {s s' : HS} {A : List U32}, (∀ c t, s.cache.get? c = some t → t ∈ A) → Act.each (createPdr ue) l s = (s', .ok ()) →
    ∃ pt pi, freeTeids s.rm = pt ++ freeTeids s'.rm ∧ pt.length ≤ askTeids l ∧ freeIps s.rm = pi ++ freeIps s'.rm ∧ pi.length ≤ askIps l ∧
      ∀ p ∈ s'.created, p ∈ s.created ∨ (p.allocated = true → (p.ipv4 = none → p.teid ∈ A ++ pt) ∧ ∀ ip, p.ipv4 = some ip → ip ∈ pi)
  | [], s, s', A, _, he => by
    cases he
    exact ⟨[], [], rfl, Nat.le_refl _, rfl, Nat.le_refl _, fun p hp => .inl hp⟩
  | ie :: l, s, s', A, hA, he => by
    obtain ⟨s1, h1, h2⟩ := each_cons_ok he
    obtain ⟨i, p, u, hid, hx, hsess, hcr, hrm, hcac, hent⟩ := createPdr_ok h1
    have g := got hx
    have cT : askTeids l ≤ askTeids (ie :: l) := by unfold askTeids; rw [List.filter_cons]; split <;> simp
    have cI : askIps l ≤ askIps (ie :: l) := by unfold askIps; rw [List.filter_cons]; split <;> simp
    cases g with
    | shared c ha hc e al h4 h6 =>
      subst e
      obtain ⟨pt, pi, a1, a2, a3, a4, a5⟩ := created_front l (s := s1) (A := A) (by rw [hcac]; exact hA) h2
      rw [hrm] at a1 a3
      refine ⟨pt, pi, a1, by omega, a3, by omega, fun q hq => ?_⟩
      rcases a5 q hq with hq | hq
      · rw [hcr] at hq
        rcases List.mem_append.1 hq with hq | hq
        · exact .inl hq
        · cases List.mem_singleton.1 hq
          exact .inr fun _ => ⟨fun _ => List.mem_append_left _ (hA c _ hc), fun ip hip => by rw [h4] at hip; cases hip⟩
      · exact .inr hq
    | fresh c ha hmiss hf hi hcache al h4 h6 =>
      obtain ⟨pt, pi, a1, a2, a3, a4, a5⟩ := created_front l (s := s1) (A := A ++ [p.teid]) (by
        rw [hcac, hcache]
        intro c' t ht
        cases c with
        | none => exact List.mem_append_left _ (hA c' t ht)
        | some c =>
          simp only [GoMap.get?_set] at ht
          split at ht
          · cases ht; simp
          · exact List.mem_append_left _ (hA c' t ht)) h2
      rw [hrm] at a1 a3
      have hc1 : askTeids (ie :: l) = askTeids l + 1 := by
        unfold askTeids; rw [List.filter_cons_of_pos (by rw [ha]; rfl), List.length_cons]
      refine ⟨p.teid :: pt, pi, by rw [hf, a1]; rfl, by rw [hc1]; simp; omega, by rw [← hi, a3], by omega, fun q hq => ?_⟩
      rcases a5 q hq with hq | hq
      · rw [hcr] at hq
        rcases List.mem_append.1 hq with hq | hq
        · exact .inl hq
        · cases List.mem_singleton.1 hq
          exact .inr fun _ => ⟨fun _ => by simp, fun ip hip => by rw [h4] at hip; cases hip⟩
      · exact .inr fun hal => ⟨fun h => by have := (hq hal).1 h; simpa using this, (hq hal).2⟩
    | address ip hn ha hu hf hi hcache al h4 =>
      obtain ⟨pt, pi, a1, a2, a3, a4, a5⟩ := created_front l (s := s1) (A := A) (by rw [hcac, hcache]; exact hA) h2
      rw [hrm] at a1 a3
      have hc1 : askIps (ie :: l) = askIps l + 1 := by
        unfold askIps; rw [List.filter_cons_of_pos ha, List.length_cons]
      refine ⟨pt, ip :: pi, by rw [← hi, a1], by omega, by rw [hf, a3]; rfl, by rw [hc1]; simp; omega, fun q hq => ?_⟩
      rcases a5 q hq with hq | hq
      · rw [hcr] at hq
        rcases List.mem_append.1 hq with hq | hq
        · exact .inl hq
        · cases List.mem_singleton.1 hq
          exact .inr fun _ => ⟨fun h => (by rw [h4] at h; cases h), fun x hx => (by rw [h4] at hx; cases hx; simp)⟩
      · exact .inr fun hal => ⟨(hq hal).1, fun x hx => List.mem_cons_of_mem _ ((hq hal).2 x hx)⟩
    | given hn ha e al =>
      subst e
      obtain ⟨pt, pi, a1, a2, a3, a4, a5⟩ := created_front l (s := s1) (A := A) (by rw [hcac]; exact hA) h2
      rw [hrm] at a1 a3
      refine ⟨pt, pi, a1, by omega, a3, by omega, fun q hq => ?_⟩
      rcases a5 q hq with hq | hq
      · rw [hcr] at hq
        rcases List.mem_append.1 hq with hq | hq
        · exact .inl hq
        · cases List.mem_singleton.1 hq
          exact .inr fun h => by rw [al] at h; cases h
      · exact .inr hq

/-- What a response reports was at the front of the pools, not farther back than the request asked for. -/
theorem reported_front {n : Node} {e : Ev} {resp : Resp} (hr : (n.step e).2 = .reply resp) (hc : resp.created ≠ []) :
    ∃ pt rt pi ri, freeTeids n.rm = pt ++ rt ∧ pt.length ≤ e.teidsAsked ∧ freeIps n.rm = pi ++ ri ∧ pi.length ≤ e.ipsAsked ∧
      (∀ i t a, .fteid i t a ∈ resp.created → t ∈ pt) ∧ ∀ i ip, .ueIp i ip ∈ resp.created → ip ∈ pi := by
  have fin : ∀ {s s' : HS} {l : List PdrIE} {ue : Bool} {n3 : Ip4}, s.rm = n.rm → s.cache = GoMap.empty → s.created = [] → Act.each (createPdr ue) l s = (s', .ok ()) →
      ∃ pt rt pi ri, freeTeids n.rm = pt ++ rt ∧ pt.length ≤ askTeids l ∧ freeIps n.rm = pi ++ ri ∧ pi.length ≤ askIps l ∧
      (∀ i t a, .fteid i t a ∈ createdIEs n3 s'.created → t ∈ pt) ∧ ∀ i ip, .ueIp i ip ∈ createdIEs n3 s'.created → ip ∈ pi := by
    intro s s' l ue n3 e1 e2 e3 e4
    obtain ⟨pt, pi, a1, a2, a3, a4, a5⟩ := created_front l (A := []) (by rw [e2]; intro c t h; simp at h) e4
    rw [e1] at a1 a3
    refine ⟨pt, _, pi, _, a1, a2, a3, a4, fun i t a h => ?_, fun i ip h => ?_⟩
    · obtain ⟨p, hp, h⟩ := List.mem_filterMap.1 h
      rcases a5 p hp with hn | hp'
      · rw [e3] at hn; cases hn
      · by_cases hal : p.allocated = true
        · rw [if_pos hal] at h
          split at h
          · cases h
          · cases h
          · rename_i h4 h6
            cases h
            simpa using (hp' hal).1 h4
        · rw [if_neg hal] at h; cases h
    · obtain ⟨p, hp, h⟩ := List.mem_filterMap.1 h
      rcases a5 p hp with hn | hp'
      · rw [e3] at hn; cases hn
      · by_cases hal : p.allocated = true
        · rw [if_pos hal] at h
          split at h
          · rename_i ip' _ h4
            cases h
            exact (hp' hal).2 ip h4
          · cases h
          · cases h
        · rw [if_neg hal] at h; cases h
  by_cases hm : e.isNodeMsg = true
  · exfalso
    cases e with
    | assocSetup a s i t =>
      simp only [Node.step, Node.assocSetup] at hr
      split at hr
      · cases hr; exact hc rfl
      · cases hr; exact hc rfl
      · split at hr <;> (cases hr; exact hc rfl)
    | assocSetupResp a i c f =>
      simp only [Node.step, Node.assocSetupResp] at hr
      split at hr
      · split at hr <;> cases hr
      · cases hr
    | assocUpdate a s i =>
      simp only [Node.step, Node.assocUpdate] at hr
      split at hr
      · cases hr; exact hc rfl
      · cases hr; exact hc rfl
      · split at hr <;> (cases hr; exact hc rfl)
    | heartbeatReq a s t =>
      simp only [Node.step, Node.heartbeatReq] at hr
      split at hr
      · cases hr
      · cases hr
      · cases hr; exact hc rfl
    | heartbeatResp a s t =>
      simp only [Node.step, Node.heartbeatResp] at hr
      split at hr <;> cases hr
    | establish => cases hm
    | modify => cases hm
    | delete => cases hm
    | peerLost => cases hm
    | setConfig => cases hm
  cases e with
  | establish a r =>
    have hacc : resp.cause = 1 := by
      have hr : (n.establish a r).2 = .reply resp := hr
      cases establish_cases n a r with
      | refused c hcc he => rw [he] at hr; cases hr; exact absurd rfl hc
      | ran remote as hs' res hid hcp ha hbody hl hrem he =>
        rw [he] at hr
        cases res with
        | panic => cases hr
        | err => cases hr; exact absurd rfl hc
        | ok _ => cases hr; rfl
    obtain ⟨seid, remote, hs', h1, h2, hb, h3, h4, h5, h6⟩ := establish_accepted (n' := (n.step (.establish a r)).1) (resp := resp) (Prod.ext rfl hr) hacc
    unfold establishBody at hb
    obtain ⟨_, s0, e0, hb⟩ := bind_ok hb
    obtain rfl := display_ok e0
    obtain ⟨_, s1, e1, hb⟩ := bind_ok hb
    obtain ⟨_, s2, e2, hb⟩ := bind_ok hb
    obtain ⟨_, s3, e3, e4⟩ := bind_ok hb
    have hI : ∀ {s s' : HS}, RuleFrame s s' → (s.cache = GoMap.empty ∧ s.rm = n.rm ∧ s.created = []) →
        s'.cache = GoMap.empty ∧ s'.rm = n.rm ∧ s'.created = [] := fun h h' => ⟨h.cache.trans h'.1, h.rm.trans h'.2.1, h.created.trans h'.2.2⟩
    have f1 := pres_each_ok (fun _ _ => pres_of fun s h => hI (createFar_rf _ s) h) e1 ⟨rfl, rfl, rfl⟩
    have f2 := pres_each_ok (fun _ _ => pres_of fun s h => hI (createQer_rf _ s) h) e2 f1
    have f3 := pres_each_ok (fun _ _ => pres_of fun s h => hI (createUrr_rf _ s) h) e3 f2
    rw [h6]
    exact fin f3.2.1 f3.1 f3.2.2 e4
  | modify a r ord =>
    have hr' : (n.modify a r ord).2 = .reply resp := hr
    have key : ∃ sess, n.session? a r.seid = some sess ∧ resp.cause = 1 := by
      cases modify_cases n a r ord with
      | refused c x hcc hs he => rw [he] at hr'; cases hr'; exact absurd rfl hc
      | ran as sess hs' res ha hsess hbody hl hrem he =>
        rw [he] at hr'
        refine ⟨sess, by simp [Node.session?, ha, hsess], ?_⟩
        cases res with
        | panic => cases hr'
        | err => cases hr'; exact absurd rfl hc
        | ok _ => cases hr'; rfl
    obtain ⟨sess, hsess, hacc⟩ := key
    obtain ⟨hs', hb, h3, h4, h5, -, h6⟩ := modify_accepted (n' := (n.step (.modify a r ord)).1) hsess (Prod.ext rfl hr) hacc
    obtain ⟨s1, s2, s3, s4, s5, s6, s7, s8, s9, s10, s11, e1, e2, e3, e4, e5, e6, e7, e8, e9, e10, e11, e12⟩ := modify_phases hb
    have hI : ∀ {s s' : HS}, RuleFrame s s' → (s.cache = GoMap.empty ∧ s.rm = n.rm ∧ s.created = []) →
        s'.cache = GoMap.empty ∧ s'.rm = n.rm ∧ s'.created = [] := fun h h' => ⟨h.cache.trans h'.1, h.rm.trans h'.2.1, h.created.trans h'.2.2⟩
    have f1 := pres_each_ok (fun _ _ => pres_of fun s h => hI (createFar_rf _ s) h) e1 ⟨rfl, rfl, rfl⟩
    have f2 := pres_each_ok (fun _ _ => pres_of fun s h => hI (updateFar_rf _ s) h) e2 f1
    have f3 := pres_each_ok (fun _ _ => pres_of fun s h => hI (removeFar_rf _ s) h) e3 f2
    have f4 := pres_each_ok (fun _ _ => pres_of fun s h => hI (createQer_rf _ s) h) e4 f3
    have f5 := pres_each_ok (fun _ _ => pres_of fun s h => hI (updateQer_rf _ s) h) e5 f4
    have f6 := pres_each_ok (fun _ _ => pres_of fun s h => hI (removeQer_rf _ s) h) e6 f5
    have f7 := pres_each_ok (fun _ _ => pres_of fun s h => hI (createUrr_rf _ s) h) e7 f6
    have f8 := pres_each_ok (fun _ _ => pres_of fun s h => hI (updateUrr_rf _ s) h) e8 f7
    have f9 := pres_each_ok (fun _ _ => pres_of fun s h => hI (removeUrr_rf _ s) h) e9 f8
    have c1 := pres_each_ok (I := fun s => s.created = s10.created) (fun x _ => updatePdr_created n.ueip x) e11 rfl
    have c2 := pres_each_ok (I := fun s => s.created = s10.created) (fun x _ => removePdr_created ord x) e12 c1
    rw [h6, c2]
    obtain ⟨pt, rt, pi, ri, a1, a2, a3, a4, a5, a6⟩ := fin (n3 := n.cfg.n3) f9.2.1 f9.1 f9.2.2 e10
    exact ⟨pt, rt, pi, ri, a1, Nat.le_trans a2 (Nat.le_add_right ..), a3, Nat.le_trans a4 (Nat.le_add_right ..), a5, a6⟩
  | delete a r ord =>
    exfalso
    have hr : (n.delete a r ord).2 = .reply resp := hr
    cases delete_cases n a r ord with
    | refused c hcc hs he => rw [he] at hr; cases hr; exact hc rfl
    | ran as sess hs' res ha hsess hbody he =>
      rw [he] at hr
      cases res with
      | panic => cases hr
      | err => cases hr
      | ok _ => cases hr; exact hc rfl
  | peerLost a ord =>
    exfalso
    have hr : (n.deleteAssociation a ord).2 = .reply resp := hr
    unfold Node.deleteAssociation at hr
    split at hr
    · cases hr
    · split at hr <;> cases hr
  | setConfig u => cases hr
  | assocSetup => exact absurd rfl hm
  | assocSetupResp => exact absurd rfl hm
  | assocUpdate => exact absurd rfl hm
  | heartbeatReq => exact absurd rfl hm
  | heartbeatResp => exact absurd rfl hm

/-! ### C104 -/

/-- **C104, TEIDs**: the TEID `t` is not free now. Whatever happens from now on, with any sessions coming and going, `t` is not chosen for anyone before more TEIDs
have been asked for than are free now. -/
theorem C104_teid_last {n n2 : Node} {h : List (Ev × Outcome)} {e : Ev} {resp : Resp} {t : U32} {i : U16} {a : Ip4} (hn : t ∉ freeTeids n.rm) (H : Hist n h n2)
    (hr : (n2.step e).2 = .reply resp) (ht : .fteid i t a ∈ resp.created) : (freeTeids n.rm).length < teidsAsked h + e.teidsAsked := by
  obtain ⟨pt, rt, pi, ri, a1, a2, a3, a4, a5, a6⟩ := reported_front hr (by intro h; rw [h] at ht; cases ht)
  have q := hist_queue (P := teids) H
  have hsum : (h.map (fun x => teids.asked x.1)).sum = teidsAsked h := by
    unfold teidsAsked; congr 1
  rw [hsum] at q
  exact Queue.late q hn a1 (a5 i t a ht) a2

/-- **C104, addresses**: the same for the addresses of the UEs. -/
theorem C104_address_last {n n2 : Node} {h : List (Ev × Outcome)} {e : Ev} {resp : Resp} {ip : Ip4} {i : U16} (hn : ip ∉ freeIps n.rm) (H : Hist n h n2)
    (hr : (n2.step e).2 = .reply resp) (ht : .ueIp i ip ∈ resp.created) : (freeIps n.rm).length < ipsAsked h + e.ipsAsked := by
  obtain ⟨pt, rt, pi, ri, a1, a2, a3, a4, a5, a6⟩ := reported_front hr (by intro h; rw [h] at ht; cases ht)
  have q := hist_queue (P := addresses) H
  have hsum : (h.map (fun x => addresses.asked x.1)).sum = ipsAsked h := by
    unfold ipsAsked; congr 1
  rw [hsum] at q
  exact Queue.late q hn a3 (a6 i ip ht) a4

/-- **C104, chosen TEIDs**: a TEID was chosen for a session that is being established. Whatever becomes of the session, the TEID is not chosen again before more TEIDs have
been asked for than were free after the establishment. -/
theorem C104_chosen_teid_last {cfg : NodeCfg} {ips : List Ip4} {range : U32} {dp : BpfObjects} {n n1 n2 : Node} {h0 h : List (Ev × Outcome)} {a : Addr} {r : EstReq} {e : Ev}
    {resp resp' : Resp} {t : U32} {i j : U16} {x y : Ip4}
    (H0 : Hist (Node.init cfg (some (newResourceManager ips range)) dp) h0 n) (hstep : n.step (.establish a r) = (n1, .reply resp)) (hacc : resp.cause = 1)
    (ht : .fteid i t x ∈ resp.created) (H : Hist n1 h n2) (hr : (n2.step e).2 = .reply resp') (ht' : .fteid j t y ∈ resp'.created) :
    (freeTeids n1.rm).length < teidsAsked h + e.teidsAsked := by
  obtain ⟨ts, h1, h2⟩ := C16_establishment (C16_pool H0) hstep hacc
  refine C104_teid_last ?_ H hr ht'
  have hmem : (i, t) ∈ reportedTeids resp.created := List.mem_filterMap.2 ⟨_, ht, rfl⟩
  rw [h1.reported] at hmem
  obtain ⟨z, hz, e⟩ := List.mem_map.1 hmem
  cases e
  exact (h2 z.2 (List.of_mem_zip hz).2).2

/-- a request of eight PDRs that ask for a TEID each -/
def Demo.eight : EstReq := { seq := 6, nodeId := some (some ()), cpFseid := some (some 101), createFar := [Demo.fwd],
                             createPdr := [Demo.ch 1 none, Demo.ch 2 none, Demo.ch 3 none, Demo.ch 4 none, Demo.ch 5 none, Demo.ch 6 none, Demo.ch 7 none, Demo.ch 8 none] }

/-- TEID 1 was chosen for a session of peer 1 and the session was deleted at once; seven TEIDs (2 to 8) were free. A request for eight TEIDs gets 2, 3, ..., 8 and then 1: as early as
C104 allows (7 < 8). -/
example : ∃ (h : List (Ev × Outcome)) (n1 n2 : Node) (resp : Resp), (Demo.n0.run [.assocSetup 1 1 (some (some ())) (some (some ()))]).1.step (.establish 1 (Demo.est 100)) = (n1, .reply resp) ∧ resp.cause = 1 ∧
    .fteid 1 1 0x0a000001 ∈ resp.created ∧ freeTeids n1.rm = [2, 3, 4, 5, 6, 7, 8] ∧ Hist n1 h n2 ∧ teidsAsked h = 0 ∧
    (∃ resp', (n2.step (.establish 1 Demo.eight)).2 = .reply resp' ∧ resp'.created = [.fteid 1 2 0x0a000001, .fteid 2 3 0x0a000001, .fteid 3 4 0x0a000001, .fteid 4 5 0x0a000001,
      .fteid 5 6 0x0a000001, .fteid 6 7 0x0a000001, .fteid 7 8 0x0a000001, .fteid 8 1 0x0a000001]) ∧ (Ev.establish 1 Demo.eight).teidsAsked = 8 := by
  have h1 : ((Demo.n0.run [.assocSetup 1 1 (some (some ())) (some (some ()))]).1.step (.establish 1 (Demo.est 100))).2 =
      .reply { type := .establishment, seid := 100, seq := 5, cause := 1, fseid := some 2, created := [.fteid 1 1 0x0a000001, .ueIp 2 0x0a2d0001] } := by decide +kernel
  have h2 : freeTeids ((Demo.n0.run [.assocSetup 1 1 (some (some ())) (some (some ()))]).1.step (.establish 1 (Demo.est 100))).1.rm = [2, 3, 4, 5, 6, 7, 8] := by decide +kernel
  have h3 : (((Demo.n0.run [.assocSetup 1 1 (some (some ())) (some (some ()))]).1.step (.establish 1 (Demo.est 100))).1.step (.delete 1 ⟨2, 9⟩ default)).2 ≠ .crash := by decide +kernel
  have h4 : ((((Demo.n0.run [.assocSetup 1 1 (some (some ())) (some (some ()))]).1.step (.establish 1 (Demo.est 100))).1.step (.delete 1 ⟨2, 9⟩ default)).1.step (.establish 1 Demo.eight)).2 =
      .reply { type := .establishment, seid := 101, seq := 6, cause := 1, fseid := some 3, created := [.fteid 1 2 0x0a000001, .fteid 2 3 0x0a000001, .fteid 3 4 0x0a000001, .fteid 4 5 0x0a000001,
        .fteid 5 6 0x0a000001, .fteid 6 7 0x0a000001, .fteid 7 8 0x0a000001, .fteid 8 1 0x0a000001] } := by decide +kernel
  generalize (Demo.n0.run [.assocSetup 1 1 (some (some ())) (some (some ()))]).1 = n at *
  have H := Hist.step (.delete 1 ⟨2, 9⟩ default) (Hist.init (n0 := (n.step (.establish 1 (Demo.est 100))).1)) h3
  exact ⟨_, _, _, _, Prod.ext rfl h1, rfl, by simp, h2, H, rfl, ⟨_, h4, rfl⟩, by decide⟩

end Eupf
