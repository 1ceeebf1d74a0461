import Verif.Props.Moments
import Verif.Spec.Cut
/- A request up to some moment is a shorter request. Models no code. -/
namespace Eupf

theorem cut_append {α : Type} {l1 l2 a b : List α} (h : a ++ b = l1 ++ l2) : (∃ c, a = l1 ++ c) ∨ ∃ c, l1 = a ++ c ∧ b = c ++ l2 := by
  rcases List.append_eq_append_iff.1 h with ⟨c, h1, h2⟩ | ⟨c, h1, h2⟩
  · exact .inr ⟨c, h1, h2⟩
  · exact .inl ⟨c, h1⟩

theorem cut_map {α β : Type} {f : α → β} {l : List α} {l1 c : List β} (h : l.map f = l1 ++ c) : ∃ l', l' <+: l ∧ l1 = l'.map f := by
  obtain ⟨x, y, rfl, rfl, -⟩ := List.map_eq_append_iff.1 h
  exact ⟨x, List.prefix_append x y, rfl⟩

theorem all_displays (l : List PdrIE) (s : HS) : Act.all (l.map displayPdr) s = (s, .ok ()) ∨ Act.all (l.map displayPdr) s = (s, .panic) := by
  induction l with
  | nil => exact .inl rfl
  | cons x l ih =>
    rw [List.map_cons]
    have : displayPdr x s = (s, .ok ()) ∨ displayPdr x s = (s, .panic) := by
      unfold displayPdr
      cases x.pdi with
      | none => exact .inl rfl
      | some p =>
        cases hp : p.source with
        | true => simp [hp]
        | false => simp [hp]
    rcases this with h | h
    · rw [Act.all_cons_ok _ h]; exact ih
    · rw [Act.all_cons_fail _ h (by simp)]; exact .inr rfl

theorem all_displays_cut {l l' : List PdrIE} (hl : l' <+: l) {s : HS} (h : Act.all (l.map displayPdr) s = (s, .ok ())) :
    Act.all (l'.map displayPdr) s = (s, .ok ()) := by
  obtain ⟨c, rfl⟩ := hl
  rcases all_displays l' s with h1 | h1
  · exact h1
  · rw [List.map_append, Act.all_failed h1 (by simp)] at h
    cases h

theorem all_after {l : List Piece} {s t : HS} (h : Act.all l s = (t, .ok ())) (l' : List Piece) : Act.all (l ++ l') s = Act.all l' t := by
  rw [Act.all_append]
  show Act.bind (Act.all l) (fun _ => Act.all l') s = _
  unfold Act.bind
  rw [h]

/-- **Up to any moment an establishment is a shorter establishment.** -/
theorem est_cut {ue : Bool} {r : EstReq} {l1 l2 : List Piece} (h : estPieces ue r = l1 ++ l2) (s : HS) :
    ∃ r', EstReq.Cut r' r ∧ (Act.all l1 s).1 = (establishBody ue r' s).1 ∧ ((Act.all l1 s).2 = .ok () → (establishBody ue r' s).2 = .ok ()) := by
  let r0 : EstReq := { r with createFar := [], createQer := [], createUrr := [], createPdr := [] }
  have cut0 : EstReq.Cut r0 r := by constructor <;> simp [r0]
  have run0 : (establishBody ue r0 s).1 = s := rfl
  unfold estPieces at h
  rcases cut_append h with ⟨c, hc⟩ | ⟨m1, rfl, h1⟩
  · obtain ⟨l', -, rfl⟩ := cut_map hc
    exact ⟨r0, cut0, by rw [run0]; rcases all_displays l' s with e | e <;> rw [e], fun _ => rfl⟩
  rcases all_displays r.createPdr s with hd | hd
  swap
  · exact ⟨r0, cut0, by rw [run0, Act.all_failed hd (by simp)], fun _ => rfl⟩
  rw [all_after hd]
  rcases cut_append h1 with ⟨c, hc⟩ | ⟨m2, rfl, h2⟩
  · obtain ⟨l', hl, rfl⟩ := cut_map hc
    refine ⟨{ r0 with createFar := l' }, by constructor <;> simp [r0, hl], ?_⟩
    rw [establish_pieces]
    simp [estPieces, r0]
  rcases cut_append h2 with ⟨c, hc⟩ | ⟨m3, rfl, h3⟩
  · obtain ⟨l', hl, rfl⟩ := cut_map hc
    refine ⟨{ r0 with createFar := r.createFar, createQer := l' }, by constructor <;> simp [r0, hl], ?_⟩
    rw [establish_pieces]
    simp [estPieces, r0]
  rcases cut_append h3 with ⟨c, hc⟩ | ⟨m4, rfl, h4⟩
  · obtain ⟨l', hl, rfl⟩ := cut_map hc
    refine ⟨{ r0 with createFar := r.createFar, createQer := r.createQer, createUrr := l' }, by constructor <;> simp [r0, hl], ?_⟩
    rw [establish_pieces]
    simp [estPieces, r0]
  · obtain ⟨l', hl, rfl⟩ := cut_map h4
    refine ⟨{ r with createPdr := l' }, by constructor <;> simp [hl], ?_⟩
    rw [establish_pieces]
    simp only [estPieces]
    rw [all_after (all_displays_cut hl hd)]
    exact ⟨rfl, id⟩

/-- **Up to any moment a modification is a shorter modification.** -/
theorem mod_cut {ue : Bool} {ord : Orders} {r : ModReq} {l1 l2 : List Piece} (h : modPieces ue ord r = l1 ++ l2) (s : HS) :
    ∃ r', ModReq.Cut r' r ∧ (Act.all l1 s).1 = (modifyBody ue ord r' s).1 ∧ ((Act.all l1 s).2 = .ok () → (modifyBody ue ord r' s).2 = .ok ()) := by
  let r0 : ModReq := { r with createFar := [], updateFar := [], removeFar := [], createQer := [], updateQer := [], removeQer := [], createUrr := [], updateUrr := [], removeUrr := [], createPdr := [], updatePdr := [], removePdr := [] }
  have cut0 : ModReq.Cut r0 r := by constructor <;> simp [r0]
  have run0 : (modifyBody ue ord r0 s).1 = s := rfl
  unfold modPieces at h
  rcases cut_append h with ⟨c, hc⟩ | ⟨m1, rfl, h1⟩
  · obtain ⟨l', -, rfl⟩ := cut_map hc
    exact ⟨r0, cut0, by rw [run0]; rcases all_displays l' s with e | e <;> rw [e], fun _ => rfl⟩
  rcases all_displays r.createPdr s with hd | hd
  swap
  · exact ⟨r0, cut0, by rw [run0, Act.all_failed hd (by simp)], fun _ => rfl⟩
  rw [all_after hd]
  rcases cut_append h1 with ⟨c, hc⟩ | ⟨m2, rfl, h2⟩
  · obtain ⟨l', -, rfl⟩ := cut_map hc
    exact ⟨r0, cut0, by rw [run0]; rcases all_displays l' s with e | e <;> rw [e], fun _ => rfl⟩
  rcases all_displays r.updatePdr s with hu | hu
  swap
  · exact ⟨r0, cut0, by rw [run0, Act.all_failed hu (by simp)], fun _ => rfl⟩
  rw [all_after hu]
  rcases cut_append h2 with ⟨c, hc⟩ | ⟨m3, rfl, h3⟩
  · obtain ⟨l', hl, rfl⟩ := cut_map hc
    refine ⟨{ r0 with createFar := l' }, by constructor <;> simp [r0, hl], ?_⟩
    rw [modify_pieces]; simp [modPieces, r0]
  rcases cut_append h3 with ⟨c, hc⟩ | ⟨m4, rfl, h4⟩
  · obtain ⟨l', hl, rfl⟩ := cut_map hc
    refine ⟨{ r0 with createFar := r.createFar, updateFar := l' }, by constructor <;> simp [r0, hl], ?_⟩
    rw [modify_pieces]; simp [modPieces, r0]
  rcases cut_append h4 with ⟨c, hc⟩ | ⟨m5, rfl, h5⟩
  · obtain ⟨l', hl, rfl⟩ := cut_map hc
    refine ⟨{ r0 with createFar := r.createFar, updateFar := r.updateFar, removeFar := l' }, by constructor <;> simp [r0, hl], ?_⟩
    rw [modify_pieces]; simp [modPieces, r0]
  let r1 : ModReq := { r0 with createFar := r.createFar, updateFar := r.updateFar, removeFar := r.removeFar }
  rcases cut_append h5 with ⟨c, hc⟩ | ⟨m6, rfl, h6⟩
  · obtain ⟨l', hl, rfl⟩ := cut_map hc
    refine ⟨{ r1 with createQer := l' }, by constructor <;> simp [r0, r1, hl], ?_⟩
    rw [modify_pieces]; simp [modPieces, r0, r1]
  rcases cut_append h6 with ⟨c, hc⟩ | ⟨m7, rfl, h7⟩
  · obtain ⟨l', hl, rfl⟩ := cut_map hc
    refine ⟨{ r1 with createQer := r.createQer, updateQer := l' }, by constructor <;> simp [r0, r1, hl], ?_⟩
    rw [modify_pieces]; simp [modPieces, r0, r1]
  rcases cut_append h7 with ⟨c, hc⟩ | ⟨m8, rfl, h8⟩
  · obtain ⟨l', hl, rfl⟩ := cut_map hc
    refine ⟨{ r1 with createQer := r.createQer, updateQer := r.updateQer, removeQer := l' }, by constructor <;> simp [r0, r1, hl], ?_⟩
    rw [modify_pieces]; simp [modPieces, r0, r1]
  let r2 : ModReq := { r1 with createQer := r.createQer, updateQer := r.updateQer, removeQer := r.removeQer }
  rcases cut_append h8 with ⟨c, hc⟩ | ⟨m9, rfl, h9⟩
  · obtain ⟨l', hl, rfl⟩ := cut_map hc
    refine ⟨{ r2 with createUrr := l' }, by constructor <;> simp [r0, r1, r2, hl], ?_⟩
    rw [modify_pieces]; simp [modPieces, r0, r1, r2]
  rcases cut_append h9 with ⟨c, hc⟩ | ⟨m10, rfl, h10⟩
  · obtain ⟨l', hl, rfl⟩ := cut_map hc
    refine ⟨{ r2 with createUrr := r.createUrr, updateUrr := l' }, by constructor <;> simp [r0, r1, r2, hl], ?_⟩
    rw [modify_pieces]; simp [modPieces, r0, r1, r2]
  rcases cut_append h10 with ⟨c, hc⟩ | ⟨m11, rfl, h11⟩
  · obtain ⟨l', hl, rfl⟩ := cut_map hc
    refine ⟨{ r2 with createUrr := r.createUrr, updateUrr := r.updateUrr, removeUrr := l' }, by constructor <;> simp [r0, r1, r2, hl], ?_⟩
    rw [modify_pieces]; simp [modPieces, r0, r1, r2]
  rcases cut_append h11 with ⟨c, hc⟩ | ⟨m12, rfl, h12⟩
  · obtain ⟨l', hl, rfl⟩ := cut_map hc
    refine ⟨{ r with createPdr := l', updatePdr := [], removePdr := [] }, by constructor <;> simp [hl], ?_⟩
    rw [modify_pieces]
    simp only [modPieces]
    rw [all_after (all_displays_cut hl hd)]
    simp
  rcases cut_append h12 with ⟨c, hc⟩ | ⟨m13, rfl, h13⟩
  · obtain ⟨l', hl, rfl⟩ := cut_map hc
    refine ⟨{ r with updatePdr := l', removePdr := [] }, by constructor <;> simp [hl], ?_⟩
    rw [modify_pieces]
    simp only [modPieces]
    rw [all_after hd, all_after (all_displays_cut hl hu)]
    simp
  · obtain ⟨l', hl, rfl⟩ := cut_map h13
    refine ⟨{ r with removePdr := l' }, by constructor <;> simp [hl], ?_⟩
    rw [modify_pieces]
    simp only [modPieces]
    rw [all_after hd, all_after hu]
    exact ⟨rfl, id⟩

theorem ModReq.Cut.refsKnown {r' r : ModReq} (c : ModReq.Cut r' r) {x : Session} (h : RefsKnown r x) : RefsKnown r' x where
  updFar ie hi i hid := by
    rw [c.far1 (.inl (List.ne_nil_of_mem hi))]
    exact h.updFar ie (c.updateFar.subset hi) i hid
  remFar id hi := by
    rw [c.far1 (.inr (List.ne_nil_of_mem hi))]
    exact h.remFar id (c.removeFar.subset hi)
  remFarOnce := h.remFarOnce.sublist (c.removeFar.sublist.map _)
  updQer ie hi i hid := by
    rw [c.qer1 (.inl (List.ne_nil_of_mem hi))]
    exact h.updQer ie (c.updateQer.subset hi) i hid
  remQer i hi := by
    rw [c.qer1 (.inr (List.ne_nil_of_mem hi))]
    exact h.remQer i (c.removeQer.subset hi)
  remQerOnce := h.remQerOnce.sublist c.removeQer.sublist
  updUrr i hi := by
    rw [c.urr1 (.inl (List.ne_nil_of_mem hi))]
    exact h.updUrr i (c.updateUrr.subset hi)
  remUrr i hi := by
    rw [c.urr1 (.inr (List.ne_nil_of_mem hi))]
    exact h.remUrr i (c.removeUrr.subset hi)
  remUrrOnce := h.remUrrOnce.sublist c.removeUrr.sublist

theorem Ev.names_cut_est {r' r : EstReq} (c : EstReq.Cut r' r) {a : Addr} {K : PdrKey} (h : (Ev.establish a r').names K) : (Ev.establish a r).names K := by
  obtain ⟨ie, hi, h⟩ := h
  exact ⟨ie, c.pdr.subset hi, h⟩
theorem Ev.names_cut_mod {r' r : ModReq} (c : ModReq.Cut r' r) {a : Addr} {ord : Orders} {K : PdrKey} (h : (Ev.modify a r' ord).names K) :
    (Ev.modify a r ord).names K := by
  obtain ⟨ie, hi, h⟩ := h
  refine ⟨ie, ?_, h⟩
  rcases List.mem_append.1 hi with hi | hi
  · exact List.mem_append.2 (.inl (c.createPdr.subset hi))
  · exact List.mem_append.2 (.inr (c.updatePdr.subset hi))
theorem Ev.asks_cut_est {r' r : EstReq} (c : EstReq.Cut r' r) {a : Addr} {K : PdrKey} (h : (Ev.establish a r').asksFor K) : (Ev.establish a r).asksFor K := by
  obtain ⟨ie, hi, h⟩ := h
  exact ⟨ie, c.pdr.subset hi, h⟩
theorem Ev.asks_cut_mod {r' r : ModReq} (c : ModReq.Cut r' r) {a : Addr} {ord : Orders} {K : PdrKey} (h : (Ev.modify a r' ord).asksFor K) :
    (Ev.modify a r ord).asksFor K := by
  obtain ⟨ie, hi, h⟩ := h
  refine ⟨ie, ?_, h⟩
  rcases List.mem_append.1 hi with hi | hi
  · exact List.mem_append.2 (.inl (c.createPdr.subset hi))
  · exact List.mem_append.2 (.inr (c.updatePdr.subset hi))

end Eupf
