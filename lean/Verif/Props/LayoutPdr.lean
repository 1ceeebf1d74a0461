import Verif.Props.Layout
/-
C46: the complete PDR record.
-/
namespace Eupf

/-- the pieces `(offset, size), octets` fit into `n` octets, in order and without overlap -/
def Fits (n : Nat) : List ((Nat × Nat) × List U8) → Prop
  | [] => True
  | x :: xs => x.1.2 = x.2.length ∧ x.1.1 + x.1.2 ≤ n ∧ (∀ y ∈ xs, x.1.1 + x.1.2 ≤ y.1.1) ∧ Fits n xs

theorem put_len (m v : List U8) (o : Nat) (h : o + v.length ≤ m.length) : (put m o v).length = m.length := by
  simp [put]; omega
theorem put_here (m v : List U8) (o : Nat) (h : o + v.length ≤ m.length) : slice (put m o v) o v.length = v := by
  have : (m.take o).length = o := by simp; omega
  unfold slice put
  rw [List.append_assoc, List.drop_append_of_le_length (by omega), List.drop_eq_nil_of_le (by omega), List.nil_append,
    List.take_append_of_le_length (Nat.le_refl _), List.take_of_length_le (Nat.le_refl _)]
theorem put_before (m v : List U8) (o i n : Nat) (h : o + v.length ≤ m.length) (hb : i + n ≤ o) : slice (put m o v) i n = slice m i n := by
  have : (m.take o).length = o := by simp; omega
  unfold slice put
  rw [List.append_assoc, List.drop_append_of_le_length (by omega), List.take_append_of_le_length (by simp; omega),
    List.drop_take, List.take_take, Nat.min_eq_left (by omega)]

theorem fold_before (n : Nat) : ∀ (l : List ((Nat × Nat) × List U8)) (m : List U8) (i k : Nat), m.length = n → Fits n l →
    (∀ y ∈ l, i + k ≤ y.1.1) → slice (l.foldl (fun m x => put m x.1.1 (x.2.take x.1.2)) m) i k = slice m i k := by
  intro l
  induction l with
  | nil => intros; rfl
  | cons x l ih =>
    intro m i k hm hf hb
    obtain ⟨e, hx, hxs, hl⟩ := hf
    have et : x.2.take x.1.2 = x.2 := by rw [e]; exact List.take_of_length_le (Nat.le_refl _)
    rw [List.foldl_cons, et]
    have hle : x.1.1 + x.2.length ≤ m.length := by omega
    rw [ih (put m x.1.1 x.2) i k (by rw [put_len _ _ _ hle, hm]) hl (fun y hy => hb y (List.mem_cons_of_mem _ hy)),
      put_before m x.2 x.1.1 i k hle (hb x (List.mem_cons_self ..))]

theorem fold_at (n : Nat) : ∀ (l : List ((Nat × Nat) × List U8)) (m : List U8), m.length = n → Fits n l → ∀ x ∈ l,
    slice (l.foldl (fun m x => put m x.1.1 (x.2.take x.1.2)) m) x.1.1 x.1.2 = x.2 := by
  intro l
  induction l with
  | nil => intro m _ _ x hx; cases hx
  | cons y l ih =>
    intro m hm hf x hx
    obtain ⟨e, hy, hys, hl⟩ := hf
    have et : y.2.take y.1.2 = y.2 := by rw [e]; exact List.take_of_length_le (Nat.le_refl _)
    rw [List.foldl_cons, et]
    have hle : y.1.1 + y.2.length ≤ m.length := by omega
    have hml : (put m y.1.1 y.2).length = n := by rw [put_len _ _ _ hle, hm]
    rcases List.mem_cons.mp hx with rfl | hx
    · rw [fold_before n l _ _ _ hml hl hys, e, put_here _ _ _ hle]
    · exact ih _ hml hl x hx
theorem fold_len (n : Nat) : ∀ (l : List ((Nat × Nat) × List U8)) (m : List U8), m.length = n → Fits n l →
    (l.foldl (fun m x => put m x.1.1 (x.2.take x.1.2)) m).length = n := by
  intro l
  induction l with
  | nil => intro m h _; exact h
  | cons y l ih =>
    intro m hm hf
    obtain ⟨e, hy, hys, hl⟩ := hf
    have et : y.2.take y.1.2 = y.2 := by rw [e]; exact List.take_of_length_le (Nat.le_refl _)
    rw [List.foldl_cons, et]
    exact ih _ (by rw [put_len _ _ _ (by omega), hm]) hl

theorem copy16_len (l : List U8) : (copy16 l).length = 16 := by
  unfold copy16
  split
  · rename_i h
    simp; omega
  · simp

theorem goEntry_leaves : goEntry.leaves 0 = [(0, 4), (4, 4), (8, 4), (12, 4), (16, 1), (17, 1), (18, 14), (32, 1), (33, 15), (48, 1), (49, 15),
    (64, 16), (80, 16), (96, 2), (98, 2), (100, 12), (112, 1), (113, 15), (128, 16), (144, 16), (160, 2), (162, 2), (164, 12), (176, 1),
    (177, 3), (180, 4), (184, 4), (188, 4), (192, 4), (196, 12)] := by decide +kernel
theorem goEntry_size : goEntry.size = 208 := by decide +kernel
theorem cPdr_all : cPdr.leaves 0 = [(0, 4), (4, 4), (8, 4), (12, 4), (16, 1), (17, 1), (32, 1), (48, 1), (64, 16), (80, 16), (96, 2), (98, 2),
    (112, 1), (128, 16), (144, 16), (160, 2), (162, 2), (176, 1), (180, 4), (184, 4), (188, 4), (192, 4)] := by decide +kernel

/-- the arrays of a Go value have 16 octets (the type says so) -/
def GoEntry.Sized (v : GoEntry) : Prop := v.src.ip.length = 16 ∧ v.src.mask.length = 16 ∧ v.dst.ip.length = 16 ∧ v.dst.mask.length = 16

/-- the entry a Go value stands for -/
def GoEntry.entry (v : GoEntry) : PdrEntry where
  farId := v.farId
  qerId := v.qerId
  urr1 := v.urr1
  urr2 := v.urr2
  ohr := v.ohr
  sdfMode := v.sdfMode
  filter := { proto := v.proto, src := ⟨v.src.type, le128 v.src.ip, le128 v.src.mask⟩, srcPort := v.srcPort,
              dst := ⟨v.dst.type, le128 v.dst.ip, le128 v.dst.mask⟩, dstPort := v.dstPort }
  sdfOhr := v.sdfOhr
  sdfFar := v.sdfFar
  sdfQer := v.sdfQer
  sdfUrr1 := v.sdfUrr1
  sdfUrr2 := v.sdfUrr2

theorem le32_bytes32 (x : U32) : le32 (bytes32 x) 0 = x := (cat32 x).symm
theorem le16_bytes16 (x : U16) : le16 (bytes16 x) 0 = x := (cat16 x).symm

theorem image_fits (v : GoEntry) (h : v.Sized) : Fits 208 ((goEntry.leaves 0).zip
    [bytes32 v.farId, bytes32 v.qerId, bytes32 v.urr1, bytes32 v.urr2, [v.ohr], [v.sdfMode], List.replicate 14 0,
    [v.proto], List.replicate 15 0,
    [v.src.type], List.replicate 15 0, v.src.ip, v.src.mask, bytes16 v.srcPort.lo, bytes16 v.srcPort.hi, List.replicate 12 0,
    [v.dst.type], List.replicate 15 0, v.dst.ip, v.dst.mask, bytes16 v.dstPort.lo, bytes16 v.dstPort.hi, List.replicate 12 0,
    [v.sdfOhr], List.replicate 3 0, bytes32 v.sdfFar, bytes32 v.sdfQer, bytes32 v.sdfUrr1, bytes32 v.sdfUrr2, List.replicate 12 0]) := by
  obtain ⟨h1, h2, h3, h4⟩ := h
  rw [goEntry_leaves]
  simp [Fits, h1, h2, h3, h4, bytes32, bytes16]

/-- **C46, PDR records.** Whatever values user space puts into the generated struct, the forwarding plane reads the same values
back: all members, the embedded filter included, at the same offsets and in the same byte order, and both sides use 208 octets. -/
theorem C46_pdr_record (v : GoEntry) (h : v.Sized) : PdrEntry.ofMem v.toMem = v.entry ∧ v.toMem.length = cPdr.size := by
  have hf := image_fits v h
  have hl : (List.replicate goEntry.size (0 : U8)).length = 208 := by rw [List.length_replicate, goEntry_size]
  have at' := fold_at 208 _ _ hl hf
  have len := fold_len 208 _ _ hl hf
  refine ⟨?_, by rw [cPdr_size]; exact len⟩
  have P : ∀ x : (Nat × Nat) × List U8, x ∈ _ → slice v.toMem x.1.1 x.1.2 = x.2 := at'
  rw [goEntry_leaves] at P
  simp only [List.zip_cons_cons, List.zip_nil_right, List.mem_cons, List.not_mem_nil, or_false, forall_eq_or_imp, forall_eq] at P
  generalize v.toMem = m at P
  have Q : ∀ i, cPdr.part m i = slice m ((cPdr.leaves 0).getD i (0, 0)).1 ((cPdr.leaves 0).getD i (0, 0)).2 := fun _ => rfl
  rw [cPdr_all] at Q
  obtain ⟨p0, p1, p2, p3, p4, p5, -, p6, -, p7, -, p8, p9, p10, p11, -, p12, -, p13, p14, p15, p16, -, p17, -, p18, p19, p20, p21, -⟩ := P
  unfold PdrEntry.ofMem GoEntry.entry
  simp only [Q, List.getD_cons_zero, List.getD_cons_succ, p0, p1, p2, p3, p4, p5, p6, p7, p8, p9, p10, p11, p12, p13, p14, p15, p16, p17, p18,
    p19, p20, p21, le32_bytes32, le16_bytes16, oct]

theorem goCombine_sized (d : Option GoEntry) (p : PdrInfo) (f : SdfFilter) : (goCombine d p f).Sized :=
  ⟨copy16_len _, copy16_len _, copy16_len _, copy16_len _⟩

/-- **C46, PDR writes.** The octets user space stores for a PDR, given the octets the table holds under the key, are read by the
forwarding plane as the entry the PDR asks for, combined with the entry it read under the key before. -/
theorem C46_pdr_write (cur : Option (List U8)) (p : PdrInfo) :
    PdrEntry.ofMem (storeMem cur p) = pdrToStore (cur.map PdrEntry.ofMem) p ∧ (storeMem cur p).length = cPdr.size := by
  unfold storeMem pdrToStore
  cases p.sdf with
  | none =>
    obtain ⟨h, l⟩ := C46_pdr_record { ohr := p.ohr, farId := p.farId, qerId := p.qerId } ⟨rfl, rfl, rfl, rfl⟩
    exact ⟨by rw [h]; show (_ : PdrEntry) = toEntry p; rfl, l⟩
  | some f =>
    obtain ⟨h, l⟩ := C46_pdr_record _ (goCombine_sized (cur.map GoEntry.ofMem) p f)
    refine ⟨?_, l⟩
    show PdrEntry.ofMem (goCombine (cur.map GoEntry.ofMem) p f).toMem = combineWithSdf (cur.map PdrEntry.ofMem) p f
    rw [h]
    cases cur with
    | none => rfl
    | some m =>
      have e : ∀ i j, (goEntry.leaves 0).getD i (0, 0) = (cPdr.leaves 0).getD j (0, 0) → goEntry.part m i = cPdr.part m j := by
        intro i j h
        unfold MTy.part
        rw [h]
      have e0 := e 0 0 (by rw [goEntry_leaves, cPdr_all]; rfl)
      have e1 := e 1 1 (by rw [goEntry_leaves, cPdr_all]; rfl)
      have e4 := e 4 4 (by rw [goEntry_leaves, cPdr_all]; rfl)
      simp only [Option.map_some, goCombine, combineWithSdf, GoEntry.entry, toKFilter, GoEntry.ofMem, PdrEntry.ofMem, e0, e1, e4]

/-- a PDR with a filter "udp from 10.1.0.0/16 port 53 to any" for FAR 3, QER 4 -/
def Demo.filtered : PdrInfo := { ohr := 0, farId := 3, qerId := 4, sdf := some ⟨3, ⟨1, [10, 1, 0, 0], [255, 255, 0, 0]⟩, ⟨53, 53⟩, ⟨0, [], []⟩, ⟨0, 65535⟩⟩ }
/-- the octets of the entry of a PDR without a filter for FAR 1, QER 2 -/
def Demo.plainMem : List U8 := storeMem none { farId := 1, qerId := 2 }
/-- Non-vacuity: the first record is stored over the second; the forwarding plane sees both. -/
example : (PdrEntry.ofMem (storeMem (some Demo.plainMem) Demo.filtered)).sdfMode = 2 ∧
    (PdrEntry.ofMem (storeMem (some Demo.plainMem) Demo.filtered)).farId = 1 ∧
    (PdrEntry.ofMem (storeMem (some Demo.plainMem) Demo.filtered)).sdfFar = 3 ∧
    (PdrEntry.ofMem (storeMem (some Demo.plainMem) Demo.filtered)).filter.src = ⟨1, 0x0a010000, 0xffff0000⟩ ∧
    (PdrEntry.ofMem (storeMem (some Demo.plainMem) Demo.filtered)).filter.srcPort = ⟨53, 53⟩ := by decide +kernel

end Eupf
