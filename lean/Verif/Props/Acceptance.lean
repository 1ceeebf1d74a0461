import Verif.AcceptLemmas
import Verif.Props.NeverConfigured
import Mathlib.Data.List.Perm.Subperm
/-
C95: room means acceptance. C96: the PDR tables are never over-full.
-/
namespace Eupf
open Act

section
variable {cfg : NodeCfg} {rm : Option ResourceManager} {p f q u : U32} {h : List (Ev × Outcome)} {n : Node} {addr : Addr} {r : EstReq}

/-- **C95, room means acceptance.** In every history: an establishment request from an associated peer with Node ID and CP F-SEID, all rules of which are
usable, is accepted if there are free slots for its FARs, QERs and URRs, free TEIDs and addresses for the PDRs that ask for them, and places in the PDR tables. -/
theorem C95_accepted (H : Hist (Node.init cfg rm (BpfObjects.load p f q u)) h n) (ha : (n.assocs.get? addr).isSome) (hid : r.nodeId = some (some ()))
    (hcp : ∃ c, r.cpFseid = some (some c)) (hr : r.usable n.ueip)
    (hfar : r.createFar.length ≤ n.freeFars) (hqer : r.createQer.length ≤ n.freeQers) (hurr : r.createUrr.length ≤ n.freeUrrs)
    (hteid : teidsNeeded r.createPdr ≤ (freeTeids n.rm).length) (hip : n.ueip = true → (r.createPdr.filter (·.asksIp)).length ≤ (freeIps n.rm).length)
    (hpdr : PdrRoom n.dp r.createPdr) :
    (n.step (.establish addr r)).2.ok := by
  have S := sizes_hist H
  obtain ⟨c, hcp⟩ := hcp
  show (n.establish addr r).2.ok
  cases establish_cases n addr r with
  | refused k hk he =>
    exfalso
    obtain ⟨a, ha⟩ := Option.isSome_iff_exists.1 ha
    have he : (n.establish addr r).2 = .reply { type := .establishment, seq := r.seq, cause := k } := by rw [he]
    have hv : validateRequest r.nodeId r.cpFseid = some c := by rw [hid, hcp]; rfl
    simp only [Node.establish, hv, ha] at he
    split at he <;> simp [causeAccepted, causeRuleFailure] at he <;> rcases hk with rfl | rfl <;> simp at he
  | ran remote a hs res hid hcp ha hbody hl hrem he =>
    have hok : (establishBody n.ueip r (n.hs (Session.new (a.nextSessionID + 1) remote))).2 = .ok () := by
      obtain ⟨s', fr, e⟩ := body_iff n.ueip r (n.hs (Session.new (a.nextSessionID + 1) remote)) (S.farIds.trans S.far.symm) (S.qerIds.trans S.qer.symm) (S.urrIds.trans S.urr.symm)
      rw [e]
      refine ⟨fun ie hie => ((usable_iff _ _).1 (hr.pdr ie hie)).2.1, ⟨hr.far, hfar⟩, ⟨hr.qer, hqer⟩, ⟨hr.urr, hurr⟩, ?_⟩
      refine pdrs_can _ (fun ie hie => have h := (usable_iff _ _).1 (hr.pdr ie hie); ⟨h.1, h.2.2⟩) ⟨?_, fun hu => ?_, ⟨?_, ?_, ?_⟩⟩
      · rw [fr.cache, fr.rm]
        show needTeids GoMap.empty _ ≤ _
        rw [needTeids_empty]; exact hteid
      · rw [fr.rm]; exact hip hu
      · rw [fr.ul]; exact hpdr.ul
      · rw [fr.dl4]; exact hpdr.dl4
      · rw [fr.dl6]; exact hpdr.dl6
    rw [hbody] at hok
    cases hok
    rw [he]
    exact ⟨_, rfl, rfl⟩

/-- What an accepted establishment needed. -/
structure Needed (n : Node) (addr : Addr) (r : EstReq) : Prop where
  assoc : (n.assocs.get? addr).isSome
  nodeId : r.nodeId = some (some ())
  fseid : ∃ c, r.cpFseid = some (some c)
  usable : r.usable n.ueip
  far : r.createFar.length ≤ n.freeFars
  qer : r.createQer.length ≤ n.freeQers
  urr : r.createUrr.length ≤ n.freeUrrs
  teid : teidsNeeded r.createPdr ≤ (freeTeids n.rm).length
  ip : (r.createPdr.filter (·.mustGetIp)).length ≤ (freeIps n.rm).length

/-- **C95, all of it is needed.** In every history: an accepted establishment came from an associated peer, had Node ID and CP F-SEID and only usable rules,
and there were enough free slots, TEIDs, and addresses for the PDRs that ask for one and give none. -/
theorem C95_needed (H : Hist (Node.init cfg rm (BpfObjects.load p f q u)) h n) (hok : (n.step (.establish addr r)).2.ok) : Needed n addr r := by
  have S := sizes_hist H
  have hok : (n.establish addr r).2.ok := hok
  cases establish_cases n addr r with
  | refused k hk he =>
    rw [he] at hok
    obtain ⟨resp, h1, h2⟩ := hok
    cases h1
    rcases hk with rfl | rfl <;> cases h2
  | ran remote a hs res hid hcp ha hbody hl hrem he =>
    rw [he] at hok
    have hres : res = .ok () := by
      obtain ⟨resp, h1, h2⟩ := hok
      cases res with
      | ok _ => rfl
      | err => cases h1; cases h2
      | panic => cases h1
    subst hres
    obtain ⟨s', fr, e⟩ := body_iff n.ueip r (n.hs (Session.new (a.nextSessionID + 1) remote)) (S.farIds.trans S.far.symm) (S.qerIds.trans S.qer.symm) (S.urrIds.trans S.urr.symm)
    obtain ⟨d1, ⟨d2, d2'⟩, ⟨d3, d3'⟩, ⟨d4, d4'⟩, d5⟩ := e.1 (by rw [hbody])
    obtain ⟨k1, k2, k3⟩ := pdrs_took _ d5
    rw [fr.rm] at k2 k3
    rw [fr.cache] at k2
    have k2 : needTeids GoMap.empty r.createPdr ≤ _ := k2
    rw [needTeids_empty] at k2
    exact ⟨by rw [ha]; rfl, hid, ⟨remote, hcp⟩, ⟨d2, d3, d4, fun ie hie => (usable_iff _ _).2 ⟨(k1 ie hie).1, d1 ie hie, (k1 ie hie).2⟩⟩, d2', d3', d4', k2, k3⟩

/-- **C95, exactly.** With places in the PDR tables and addresses for all who ask, the conditions are exact. -/
theorem C95_exact (H : Hist (Node.init cfg rm (BpfObjects.load p f q u)) h n) (hpdr : PdrRoom n.dp r.createPdr)
    (hip : n.ueip = true → (r.createPdr.filter (·.asksIp)).length ≤ (freeIps n.rm).length) :
    (n.step (.establish addr r)).2.ok ↔
      (n.assocs.get? addr).isSome ∧ r.nodeId = some (some ()) ∧ (∃ c, r.cpFseid = some (some c)) ∧ r.usable n.ueip ∧
      r.createFar.length ≤ n.freeFars ∧ r.createQer.length ≤ n.freeQers ∧ r.createUrr.length ≤ n.freeUrrs ∧ teidsNeeded r.createPdr ≤ (freeTeids n.rm).length := by
  constructor
  · intro h
    have N := C95_needed H h
    exact ⟨N.assoc, N.nodeId, N.fseid, N.usable, N.far, N.qer, N.urr, N.teid⟩
  · rintro ⟨h1, h2, h3, h4, h5, h6, h7, h8⟩
    exact C95_accepted H h1 h2 h3 h4 h5 h6 h7 h8 hip hpdr

/-- **C95, over tidy histories** the slots are counted by the rules of the live sessions: as long as the configured numbers of FARs, QERs and URRs are not
exceeded, a usable request is accepted (places, TEIDs and addresses provided). -/
theorem C95_room (H : HistP (fun n e => Tidy n e ∧ LosesNoUrr n e) (Node.init cfg rm (BpfObjects.load p f q u)) h n) (hb : attempts h < 2 ^ 64 - 2)
    (ha : (n.assocs.get? addr).isSome) (hid : r.nodeId = some (some ())) (hcp : ∃ c, r.cpFseid = some (some c)) (hr : r.usable n.ueip)
    (hfar : n.fars + r.createFar.length ≤ f.toNat) (hqer : n.qers + r.createQer.length ≤ q.toNat) (hurr : n.urrs + r.createUrr.length ≤ u.toNat)
    (hteid : teidsNeeded r.createPdr ≤ (freeTeids n.rm).length) (hip : n.ueip = true → (r.createPdr.filter (·.asksIp)).length ≤ (freeIps n.rm).length)
    (hpdr : PdrRoom n.dp r.createPdr) :
    (n.step (.establish addr r)).2.ok := by
  have h1 := C94_counted (H.mono fun _ _ h => h.1) hb
  have h2 := C94_counted_urr H hb
  exact C95_accepted H.hist ha hid hcp hr (by omega) (by omega) (by omega) hteid hip hpdr

/-- **C95, over the configured number** no establishment is accepted, in no tidy history. -/
theorem C95_over (H : HistP Tidy (Node.init cfg rm (BpfObjects.load p f q u)) h n) (hb : attempts h < 2 ^ 64 - 2)
    (hover : f.toNat < n.fars + r.createFar.length ∨ q.toNat < n.qers + r.createQer.length) :
    ¬ (n.step (.establish addr r)).2.ok := by
  intro hok
  have N := C95_needed H.hist hok
  have h1 := C94_counted H hb
  have := N.far
  have := N.qer
  omega

/-- **C96.** In every history the tables of PDRs have the configured size and hold at most that many entries. -/
theorem C96_pdr_tables (H : Hist (Node.init cfg rm (BpfObjects.load p f q u)) h n) :
    (n.dp.pdrUl.cap = p.toNat ∧ n.dp.pdrUl.m.size ≤ p.toNat) ∧ (n.dp.pdrDl4.cap = p.toNat ∧ n.dp.pdrDl4.m.size ≤ p.toNat) ∧
    (n.dp.pdrDl6.cap = p.toNat ∧ n.dp.pdrDl6.m.size ≤ p.toNat) :=
  have S := sizes_hist H
  ⟨S.ul, S.dl4, S.dl6⟩

/-- uplink entries are not lost while PDRs are created -/
def KeepsUl (s s' : HS) : Prop := ∀ t, (s.dp.pdrUl.lookup t).isSome → (s'.dp.pdrUl.lookup t).isSome

theorem apply_keepsUl (x : SPdr) (s : HS) : KeepsUl s (applyPdr x s).1 := by
  intro t ht
  unfold applyPdr
  cases h4 : x.ipv4 with
  | some ip =>
    simp only
    split
    · rename_i dp hd
      obtain ⟨h, hp, rfl⟩ := Option.map_eq_some_iff.1 hd
      exact ht
    · exact ht
  | none =>
    cases h6 : x.ipv6 with
    | some ip =>
      simp only
      split
      · rename_i dp hd
        obtain ⟨h, hp, rfl⟩ := Option.map_eq_some_iff.1 hd
        exact ht
      · exact ht
    | none =>
      simp only
      split
      · rename_i dp hd
        obtain ⟨h, hp, rfl⟩ := Option.map_eq_some_iff.1 hd
        unfold HMap.put at hp
        split at hp
        · cases hp
          show ((GoMap.set _ _ _).get? t).isSome
          rw [GoMap.get?_set]
          split
          · rfl
          · exact ht
        · cases hp
      · exact ht

theorem create_keepsUl (ue : Bool) (ie : PdrIE) (s0 : HS) : Pres (KeepsUl s0) (createPdr ue ie) := by
  unfold createPdr
  cases ie.pdrId with
  | none => exact Pres.fail
  | some id =>
    refine Pres.bind (pres_of fun s h => ?_) fun _ => Pres.bind (Pres.modify fun _ h => h) fun x => Pres.bind (pres_of fun s h => fun t ht => apply_keepsUl _ _ t (h t ht)) fun _ => Pres.modify fun _ h => h
    obtain ⟨_, _, e⟩ := extractPdr_frame ue ie { pdrId := id.zeroExtend 32 } s
    rw [e]; exact h

theorem create_given {ue : Bool} {ie : PdrIE} {t : U32} {s s' : HS} (h : createPdr ue ie s = (s', .ok ())) (hg : ie.givesTeid t) : (s'.dp.pdrUl.lookup t).isSome := by
  obtain ⟨id, x, s1, hid, hx, h⟩ : ∃ id x s1, ie.pdrId = some id ∧ extractPdr ue ie { pdrId := id.zeroExtend 32 } s = (s1, .ok x) ∧
      (do Act.modify (fun s => { s with sess := s.sess.putPdr x.pdrId x }); applyPdr x; Act.modify (fun s => { s with created := s.created ++ [x] }) : Act HS Unit) s1 = (s', .ok ()) := by
    unfold createPdr at h
    cases hid : ie.pdrId with
    | none => rw [hid] at h; cases h
    | some id =>
      rw [hid] at h
      obtain ⟨x, s1, hx, h⟩ := bind_ok h
      exact ⟨id, x, s1, rfl, hx, h⟩
  obtain ⟨_, s2, h2, k2⟩ := bind_ok h
  obtain ⟨_, s3, h3, k3⟩ := bind_ok k2
  cases h2; cases k3
  have hxt : x.teid = t ∧ x.ipv4 = none ∧ x.ipv6 = none := by
    obtain ⟨d, ft, hd, hf, hch, rfl⟩ := hg
    unfold extractPdr at hx
    simp only [hd, hf] at hx
    split at hx
    · cases hx
    · simp only [pdrFteid, hch] at hx
      cases hx; exact ⟨rfl, rfl, rfl⟩
  obtain ⟨rfl, h4, h6⟩ := hxt
  unfold applyPdr at h3
  simp only [h4, h6] at h3
  split at h3
  · rename_i dp hd
    obtain ⟨m, hp, rfl⟩ := Option.map_eq_some_iff.1 hd
    cases h3
    unfold HMap.put at hp
    split at hp
    · cases hp
      show ((GoMap.set _ _ _).get? _).isSome
      rw [GoMap.get?_set, if_pos rfl]; rfl
    · cases hp
  · cases h3

theorem pdrs_given {ue : Bool} : ∀ (l : List PdrIE) {s s' : HS}, Act.each (createPdr ue) l s = (s', .ok ()) →
    KeepsUl s s' ∧ ∀ ie ∈ l, ∀ t, ie.givesTeid t → (s'.dp.pdrUl.lookup t).isSome
  | [], _, _, h => by cases h; exact ⟨fun _ h => h, fun _ h => (by cases h)⟩
  | ie :: l, s, s', h => by
    obtain ⟨s1, e, h'⟩ := each_cons_ok h
    obtain ⟨k1, k2⟩ := pdrs_given l h'
    have k0 : KeepsUl s s1 := by have := (create_keepsUl ue ie s).apply (s := s) (fun _ h => h); rw [e] at this; exact this
    refine ⟨fun t ht => k1 t (k0 t ht), fun c hc t ht => ?_⟩
    rcases List.mem_cons.1 hc with rfl | hc
    · exact k1 t (create_given e ht)
    · exact k2 c hc t ht

/-- **C96, a full table refuses new TEIDs.** In every history: if an accepted establishment gives the TEIDs `L`, all different and none with a PDR before,
there were that many places in the uplink table. -/
theorem C96_new_teids (H : Hist (Node.init cfg rm (BpfObjects.load p f q u)) h n) (hcr : (n.step (.establish addr r)).2.ok)
    {L : List U32} (hnd : L.Nodup) (hnew : ∀ t ∈ L, n.dp.pdrUl.lookup t = none) (hgiven : ∀ t ∈ L, ∃ ie ∈ r.createPdr, ie.givesTeid t) :
    n.dp.pdrUl.m.size + L.length ≤ p.toNat := by
  obtain ⟨resp, h1, h2⟩ := hcr
  have hcrash : (n.step (.establish addr r)).2 ≠ .crash := by rw [h1]; simp
  have S' := sizes_hist (Hist.step _ H hcrash)
  obtain ⟨seid, remote, hs, _, _, hbody, _, hdp, _⟩ := establish_accepted (n' := (n.step (.establish addr r)).1) (resp := resp) (Prod.ext rfl h1) h2
  obtain ⟨s1, s2, s3, e1, e2, e3, e4⟩ := establish_pdrs hbody
  obtain ⟨k1, k2⟩ := pdrs_given _ e4
  have fr : s3.dp.pdrUl = n.dp.pdrUl := by
    have f1 := pres_each_ok (I := fun s => s.dp.pdrUl = n.dp.pdrUl) (fun x _ => pres_of fun s h => (createFar_rf x s).ul.trans h) e1 rfl
    have f2 := pres_each_ok (I := fun s => s.dp.pdrUl = n.dp.pdrUl) (fun x _ => pres_of fun s h => (createQer_rf x s).ul.trans h) e2 f1
    exact pres_each_ok (I := fun s => s.dp.pdrUl = n.dp.pdrUl) (fun x _ => pres_of fun s h => (createUrr_rf x s).ul.trans h) e3 f2
  have hlen : (L ++ n.dp.pdrUl.m.keys).length ≤ hs.dp.pdrUl.m.keys.length := by
    refine (List.Nodup.subperm ?_ ?_).length_le
    · refine List.nodup_append.2 ⟨hnd, n.dp.pdrUl.m.nodup, fun a ha b hb e => ?_⟩
      subst e
      have := (n.dp.pdrUl.m.mem_keys_iff a).1 hb
      rw [show n.dp.pdrUl.m.get? a = none from hnew a ha] at this
      cases this
    · intro t ht
      rw [GoMap.mem_keys_iff]
      rcases List.mem_append.1 ht with ht | ht
      · obtain ⟨ie, hie, hg⟩ := hgiven t ht
        exact k2 ie hie t hg
      · refine k1 t ?_
        rw [fr]
        exact (n.dp.pdrUl.m.mem_keys_iff t).1 ht
  have hS := S'.ul.2
  rw [hdp] at hS
  have a1 : n.dp.pdrUl.m.keys.length = n.dp.pdrUl.m.size := List.length_map ..
  have a2 : hs.dp.pdrUl.m.keys.length = hs.dp.pdrUl.m.size := List.length_map ..
  rw [List.length_append, a1, a2] at hlen
  omega
end

namespace Demo
/-- One FAR, one QER, one URR; two uplink PDRs that share a chosen TEID, a downlink PDR with a filter that asks for an address. -/
def full : EstReq :=
  { seq := 5, nodeId := some (some ()), cpFseid := some (some 200), createFar := [fwd], createQer := [{ qerId := some 1 }], createUrr := [some 1],
    createPdr := [{ pdrId := some 1, farId := some 1, pdi := some { fteid := some (some { teid := 0, ch := true, chooseId := some 7 }) } },
                  { pdrId := some 2, farId := some 1, pdi := some { fteid := some (some { teid := 0, ch := true, chooseId := some 7 }) } },
                  { pdrId := some 3, farId := some 1, sdf := some [], pdi := some { ueip := some (some { chv4 := true }) } },
                  { pdrId := some 4, farId := some 1, pdi := some { fteid := some (some { teid := 0x900 }) } }] }
theorem full_usable : full.usable true := by
  refine ⟨fun c hc => ?_, fun c hc => ?_, fun c hc => ?_, fun c hc => ?_⟩
  · simp only [full, List.mem_singleton] at hc; subst hc
    exact ⟨by decide, by decide, fun o ho => by simp only [fwd, Option.some.injEq] at ho; subst ho; exact ⟨_, rfl, rfl⟩⟩
  · simp only [full, List.mem_singleton] at hc; subst hc; rfl
  · simp only [full, List.mem_singleton] at hc; subst hc; rfl
  · simp only [full, List.mem_cons, List.not_mem_nil, or_false] at hc
    rcases hc with rfl | rfl | rfl | rfl
    · exact ⟨rfl, ⟨_, rfl, rfl, by simp, fun h => (by cases h)⟩, fun t h => (by cases h)⟩
    · exact ⟨rfl, ⟨_, rfl, rfl, by simp, fun h => (by cases h)⟩, fun t h => (by cases h)⟩
    · exact ⟨rfl, ⟨_, rfl, rfl, by simp, fun _ u hu => by cases hu; exact ⟨_, rfl, .inr (.inr ⟨rfl, rfl⟩)⟩⟩, fun t h => by cases h; exact .inl rfl⟩
    · exact ⟨rfl, ⟨_, rfl, rfl, by simp, fun h => (by cases h)⟩, fun t h => (by cases h)⟩
theorem full_room : PdrRoom nT2.dp full.createPdr := ⟨by decide +kernel, by decide +kernel, by decide +kernel⟩
end Demo

/-- Non-vacuity of C95: the request of `Demo.full`, in a state with a session, meets all hypotheses of `C95_accepted`, `C95_room` and `C95_exact`; it needs one TEID. -/
example : ∃ h, HistP (fun n e => Tidy n e ∧ LosesNoUrr n e) Demo.n0 h Demo.nT2 ∧ attempts h < 2 ^ 64 - 2 ∧ (Demo.nT2.assocs.get? 1).isSome ∧ Demo.full.usable Demo.nT2.ueip ∧
    Demo.nT2.fars = 1 ∧ Demo.nT2.fars + Demo.full.createFar.length ≤ 4 ∧ Demo.nT2.qers + Demo.full.createQer.length ≤ 4 ∧ Demo.nT2.urrs + Demo.full.createUrr.length ≤ 4 ∧
    Demo.full.createFar.length ≤ Demo.nT2.freeFars ∧ Demo.full.createQer.length ≤ Demo.nT2.freeQers ∧ Demo.full.createUrr.length ≤ Demo.nT2.freeUrrs ∧
    teidsNeeded Demo.full.createPdr = 1 ∧ teidsNeeded Demo.full.createPdr ≤ (freeTeids Demo.nT2.rm).length ∧
    (Demo.full.createPdr.filter (·.asksIp)).length ≤ (freeIps Demo.nT2.rm).length ∧ PdrRoom Demo.nT2.dp Demo.full.createPdr := by
  have h1 : HistP (fun n e => Tidy n e ∧ LosesNoUrr n e) Demo.n0 _ Demo.nT1 :=
    HistP.step _ .init ⟨Demo.tidy_assoc Demo.n0 1, (by intro a o s x h; cases h)⟩ (by decide +kernel)
  have h2 : HistP (fun n e => Tidy n e ∧ LosesNoUrr n e) Demo.n0 _ Demo.nT2 :=
    HistP.step _ h1 ⟨Demo.tidy_est, (by intro a o s x h; cases h)⟩ (by decide +kernel)
  have hue : Demo.nT2.ueip = true := by decide +kernel
  exact ⟨_, h2, by decide, by decide +kernel, by rw [hue]; exact Demo.full_usable, by decide +kernel, by decide +kernel, by decide +kernel, by decide +kernel, by decide +kernel,
    by decide +kernel, by decide +kernel, by decide +kernel, by decide +kernel, by decide +kernel, Demo.full_room⟩
/-- Non-vacuity of `C95_needed` and `C96_new_teids`: the same request is accepted, and gives TEID 0x900, which is new. -/
example : (Demo.nT2.step (.establish 1 Demo.full)).2.ok ∧ ∃ ie ∈ Demo.full.createPdr, ie.givesTeid 0x900 := by
  refine ⟨?_, _, by simp only [Demo.full]; exact List.mem_cons_of_mem _ (List.mem_cons_of_mem _ (List.mem_cons_of_mem _ List.mem_cons_self)), _, _, rfl, rfl, rfl, rfl⟩
  have h : (Demo.nT2.step (.establish 1 Demo.full)).2.accepted = true := by decide +kernel
  revert h
  generalize (Demo.nT2.step (.establish 1 Demo.full)).2 = o
  intro h
  cases o with
  | reply resp => exact ⟨resp, rfl, by simpa [Outcome.accepted, causeAccepted] using h⟩
  | silent => cases h
  | crash => cases h
/-- Non-vacuity of `C95_over`: four FARs more than the table has left. -/
example : (4 : U32).toNat < Demo.nT2.fars + ({ Demo.full with createFar := List.replicate 4 Demo.fwd } : EstReq).createFar.length ∨
    (4 : U32).toNat < Demo.nT2.qers + ({ Demo.full with createFar := List.replicate 4 Demo.fwd } : EstReq).createQer.length := .inl (by decide +kernel)

end Eupf
