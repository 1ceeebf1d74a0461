import Verif.GtpPath
import Verif.Props.Replies
/-
C53: GTP-U path supervision.
-/
namespace Eupf

/-- Specification: an echo response (3GPP TS 29.281: message type 2, TEID 0) came. -/
def EchoFate.IsResponse (f : EchoFate) : Prop := ∃ m, f = .answer m ∧ m.messageType = 2 ∧ m.teid = 0

instance (f : EchoFate) : Decidable f.IsResponse :=
  match f with
  | .notSent => isFalse (fun ⟨_, h, _⟩ => by cases h)
  | .noAnswer => isFalse (fun ⟨_, h, _⟩ => by cases h)
  | .answer m => if h : m.messageType = 2 ∧ m.teid = 0 then isTrue ⟨m, rfl, h⟩ else isFalse (fun ⟨_, e, h'⟩ => by cases e; exact h h')

theorem EchoFate.ok_iff (f : EchoFate) : f.ok = true ↔ f.IsResponse := by
  cases f with
  | notSent => exact ⟨fun h => (by cases h), fun ⟨_, h, _⟩ => (by cases h)⟩
  | noAnswer => exact ⟨fun h => (by cases h), fun ⟨_, h, _⟩ => (by cases h)⟩
  | answer m =>
    constructor
    · intro h
      simp only [EchoFate.ok, Bool.and_eq_true, beq_iff_eq] at h
      exact ⟨m, rfl, h⟩
    · rintro ⟨_, e, h⟩
      cases e
      simp only [EchoFate.ok, Bool.and_eq_true, beq_iff_eq]
      exact h

/-- Specification: the echo responses that came from a peer. -/
def answersTaken (p : String) (log : List Attempt) : Nat := (log.filter fun a => a.peer = p ∧ a.fate.IsResponse).length

/-- Specification: every request carries the number of answers taken so far, modulo 2^16. -/
def SeqOk : List Attempt → Prop
  | [] => True
  | a :: log => a.seq = BitVec.ofNat 16 (answersTaken a.peer log) ∧ SeqOk log

structure PInv (m : PathManager) : Prop where
  cur : ∀ p q, m.peers.get? p = some q → q = BitVec.ofNat 16 (answersTaken p m.log)
  log : SeqOk m.log

theorem answersTaken_cons (p : String) (a : Attempt) (log : List Attempt) :
    answersTaken p (a :: log) = answersTaken p log + if a.peer = p ∧ a.fate.ok = true then 1 else 0 := by
  unfold answersTaken
  rw [List.filter_cons]
  simp only [← EchoFate.ok_iff]
  by_cases h : a.peer = p ∧ a.fate.ok = true <;> simp [h]

theorem probe_inv (fate : String → EchoFate) : ∀ (l : List (String × U16)) (m : PathManager), PInv m → (l.map Prod.fst).Nodup →
    (∀ x ∈ l, m.peers.get? x.1 = some x.2) →
    PInv (l.foldl (PathManager.probe fate) m) ∧
      (∀ p, ((l.foldl (PathManager.probe fate) m).peers.get? p).isSome = (m.peers.get? p).isSome) ∧
      (l.foldl (PathManager.probe fate) m).log.map Attempt.peer = (l.map Prod.fst).reverse ++ m.log.map Attempt.peer
  | [], m, h, _, _ => ⟨h, fun _ => rfl, rfl⟩
  | (p, q) :: l, m, h, hn, hl => by
    simp only [List.map_cons, List.nodup_cons] at hn
    have hq : m.peers.get? p = some q := hl (p, q) List.mem_cons_self
    have hm : PInv (m.probe fate (p, q)) := by
      have hqv := h.cur p q hq
      unfold PathManager.probe
      by_cases hok : (fate p).ok = true
      · simp only [hok, if_true]
        refine ⟨?_, hqv, h.log⟩
        intro p' q' hq'
        simp only [GoMap.get?_set] at hq'
        rw [answersTaken_cons]
        by_cases hp : p' = p
        · subst hp
          simp only [if_true, Option.some.injEq] at hq'
          simp only [hok, and_self, if_true]
          rw [← hq', hqv, BitVec.ofNat_add]
          rfl
        · rw [if_neg hp] at hq'
          rw [if_neg (fun hh => hp hh.1.symm)]
          exact h.cur p' q' hq'
      · simp only [hok, if_false, Bool.false_eq_true]
        refine ⟨?_, hqv, h.log⟩
        intro p' q' hq'
        rw [answersTaken_cons, if_neg (fun hh => hok hh.2)]
        exact h.cur p' q' hq'
    have hpeers : ∀ p', p' ≠ p → (m.probe fate (p, q)).peers.get? p' = m.peers.get? p' := by
      intro p' hp
      unfold PathManager.probe
      split
      · simp [GoMap.get?_set, hp]
      · rfl
    have hsome : ∀ p', ((m.probe fate (p, q)).peers.get? p').isSome = (m.peers.get? p').isSome := by
      intro p'
      by_cases hp : p' = p
      · subst hp
        unfold PathManager.probe
        split
        · simp [GoMap.get?_set, hq]
        · rfl
      · rw [hpeers p' hp]
    have hlog : (m.probe fate (p, q)).log.map Attempt.peer = p :: m.log.map Attempt.peer := by
      unfold PathManager.probe
      split <;> rfl
    obtain ⟨i1, i2, i3⟩ := probe_inv fate l (m.probe fate (p, q)) hm hn.2 (by
      intro x hx
      rw [hpeers x.1 (by rintro rfl; exact hn.1 (List.mem_map.2 ⟨x, hx, rfl⟩))]
      exact hl x (List.mem_cons_of_mem _ hx))
    refine ⟨i1, fun p' => (i2 p').trans (hsome p'), ?_⟩
    show (l.foldl (PathManager.probe fate) (m.probe fate (p, q))).log.map Attempt.peer = _
    rw [i3, hlog]
    simp

theorem start_inv (peers : List String) : PInv (PathManager.start peers) ∧
    (∀ p, ((PathManager.start peers).peers.get? p).isSome ↔ p ∈ peers) ∧ (PathManager.start peers).log = [] := by
  suffices ∀ (l : List String) (m : PathManager), PInv m → m.log = [] →
      PInv (l.foldl PathManager.addGtpPath m) ∧
      (∀ p, ((l.foldl PathManager.addGtpPath m).peers.get? p).isSome ↔ p ∈ l ∨ (m.peers.get? p).isSome) ∧
      (l.foldl PathManager.addGtpPath m).log = [] by
    have := this peers PathManager.new ⟨by intro p q h; simp [PathManager.new] at h, trivial⟩ rfl
    refine ⟨this.1, fun p => ?_, this.2.2⟩
    have h2 := this.2.1 p
    simp only [PathManager.new, GoMap.get?_empty, Option.isSome_none, Bool.false_eq_true, or_false] at h2
    exact h2
  intro l
  induction l with
  | nil => intro m h hl; exact ⟨h, by simp, hl⟩
  | cons x l ih =>
    intro m h hl
    have := ih (m.addGtpPath x) ⟨by
      intro p q hq
      simp only [PathManager.addGtpPath, GoMap.get?_set] at hq ⊢
      split at hq
      · simp only [Option.some.injEq] at hq
        rw [hl, ← hq]; rfl
      · exact h.cur p q hq, h.log⟩ hl
    refine ⟨this.1, fun p => ?_, this.2.2⟩
    show ((l.foldl PathManager.addGtpPath (m.addGtpPath x)).peers.get? p).isSome ↔ _
    rw [this.2.1 p]
    simp only [PathManager.addGtpPath, GoMap.get?_set, List.mem_cons]
    by_cases hp : p = x <;> simp [hp]

/-- **C53.** For every list of peers, number of ticks, iteration order and fate of the requests: every request carries the number of
answers of its peer taken before it, modulo 2^16; and every tick makes exactly one attempt per configured peer, reachable or not. -/
theorem C53_sequence (peers : List String) (ticks : List (Shuffle (String × U16) × (String → EchoFate))) :
    SeqOk ((PathManager.start peers).run ticks).log ∧
    ∀ p, (((PathManager.start peers).run ticks).log.filter fun a => a.peer = p).length = if p ∈ peers then ticks.length else 0 := by
  suffices ∀ (ts : List (Shuffle (String × U16) × (String → EchoFate))) (m : PathManager), PInv m →
      (∀ p, (m.peers.get? p).isSome ↔ p ∈ peers) →
      PInv (m.run ts) ∧ ∀ p, ((m.run ts).log.filter fun a => a.peer = p).length =
        (m.log.filter fun a => a.peer = p).length + if p ∈ peers then ts.length else 0 by
    obtain ⟨h1, h2, h3⟩ := start_inv peers
    have := this ticks _ h1 h2
    refine ⟨this.1.log, fun p => ?_⟩
    rw [this.2 p, h3]; simp
  intro ts
  induction ts with
  | nil => intro m h _; exact ⟨h, by simp [PathManager.run]⟩
  | cons t ts ih =>
    intro m h hp
    have hperm := t.1.perm m.peers.entries
    obtain ⟨i1, i2, i3⟩ := probe_inv t.2 (t.1.run m.peers.entries) m h ((hperm.map Prod.fst).nodup_iff.2 m.peers.nodup)
      (fun x hx => (m.peers.mem_entries_iff x.1 x.2).1 (hperm.mem_iff.1 hx))
    have := ih (m.tick t.1 t.2) i1 (fun p => by rw [PathManager.tick, i2]; exact hp p)
    refine ⟨this.1, fun p => ?_⟩
    show ((PathManager.run (m.tick t.1 t.2) ts).log.filter fun a => a.peer = p).length = _
    rw [this.2 p]
    have hc : ∀ l : List Attempt, (l.filter fun a => a.peer = p).length = (l.map Attempt.peer).count p := by
      intro l
      induction l with
      | nil => rfl
      | cons a l ih2 =>
        rw [List.filter_cons, List.map_cons, List.count_cons]
        by_cases h : a.peer = p
        · simp [h, ih2]
        · simp [h, ih2]
    rw [hc, hc, PathManager.tick, i3, List.count_append, List.count_reverse, (hperm.map Prod.fst).count_eq]
    have hk : (m.peers.entries.map Prod.fst).count p = if p ∈ peers then 1 else 0 := by
      have hnd : (m.peers.entries.map Prod.fst).Nodup := m.peers.nodup
      rw [hnd.count]
      have : p ∈ m.peers.entries.map Prod.fst ↔ p ∈ peers := (m.peers.mem_keys_iff p).trans (hp p)
      simp only [this]
    rw [hk]
    split <;> simp <;> omega

/-- **C53, negation.** The answer need not be to the request: an echo response with any sequence number is taken. -/
theorem C53_any_answer (peers : List String) (p : String) (hp : p ∈ peers) (seq : U16) :
    ∃ fate, fate p = .answer ⟨2, 0, true, seq⟩ ∧ ((PathManager.start peers).run [(Shuffle.id, fate)]).peers.get? p = some 1 := by
  refine ⟨fun _ => .answer ⟨2, 0, true, seq⟩, rfl, ?_⟩
  have h1 := C53_sequence peers [(Shuffle.id, fun _ => .answer ⟨2, 0, true, seq⟩)]
  obtain ⟨i, hs, hl⟩ := start_inv peers
  have hperm := (Shuffle.id (α := String × U16)).perm (PathManager.start peers).peers.entries
  obtain ⟨i1, i2, i3⟩ := probe_inv (fun _ => .answer ⟨2, 0, true, seq⟩) (Shuffle.id.run (PathManager.start peers).peers.entries)
    (PathManager.start peers) i ((hperm.map Prod.fst).nodup_iff.2 (PathManager.start peers).peers.nodup)
    (fun x hx => ((PathManager.start peers).peers.mem_entries_iff x.1 x.2).1 (hperm.mem_iff.1 hx))
  have hsome : ((PathManager.tick (PathManager.start peers) Shuffle.id fun _ => .answer ⟨2, 0, true, seq⟩).peers.get? p).isSome := by
    rw [PathManager.tick, i2]; exact (hs p).2 hp
  obtain ⟨q, hq⟩ := Option.isSome_iff_exists.1 hsome
  have hc := i1.cur p q hq
  show (PathManager.tick (PathManager.start peers) Shuffle.id fun _ => .answer ⟨2, 0, true, seq⟩).peers.get? p = some 1
  rw [hq, hc]
  have hcount := h1.2 p
  rw [if_pos hp] at hcount
  have hall : ∀ l m, (∀ a ∈ m.log, a.fate.ok = true) →
      ∀ a ∈ (List.foldl (PathManager.probe fun _ => .answer ⟨2, 0, true, seq⟩) m l).log, a.fate.ok = true := by
    intro l
    induction l with
    | nil => intro m h; exact h
    | cons x l ih =>
      intro m h
      refine ih _ ?_
      unfold PathManager.probe
      intro a ha
      split at ha <;> rcases List.mem_cons.1 ha with rfl | ha
      · rfl
      · exact h a ha
      · rfl
      · exact h a ha
  have hall := hall (Shuffle.id.run (PathManager.start peers).peers.entries) (PathManager.start peers) (by rw [hl]; simp)
  have : answersTaken p (PathManager.tick (PathManager.start peers) Shuffle.id fun _ => .answer ⟨2, 0, true, seq⟩).log = 1 := by
    rw [← show _ = 1 from hcount]
    unfold answersTaken
    congr 1
    refine List.filter_congr fun a ha => ?_
    simp [(EchoFate.ok_iff _).1 (hall a ha)]
  have e : answersTaken p (List.foldl (PathManager.probe fun _ => .answer ⟨2, 0, true, seq⟩) (PathManager.start peers)
      (Shuffle.id.run (PathManager.start peers).peers.entries)).log = 1 := this
  rw [e]; rfl

/-- **C53, the request.** It is an echo request as TS 29.281 has it: version 1, protocol type GTP, sequence number flag only; message type 1;
the length is that of what follows the first 8 octets; TEID 0; the sequence number in octets 9 and 10. -/
theorem C53_request (seq : U16) :
    let o := echoRequest seq
    (oct o 0).extractLsb' 5 3 = 1 ∧ (oct o 0).getLsbD 4 = true ∧ (oct o 0).extractLsb' 0 4 = 2 ∧ oct o 1 = 1 ∧
    (be16 o 2).toNat + 8 = o.length ∧ be32 o 4 = 0 ∧ be16 o 8 = seq ∧ oct o 10 = 0 ∧ oct o 11 = 0 := by
  refine ⟨by show (0x32#8).extractLsb' 5 3 = 1; decide, by show (0x32#8).getLsbD 4 = true; decide,
    by show (0x32#8).extractLsb' 0 4 = 2; decide, rfl, ?_, ?_, ?_, rfl, rfl⟩
  · show (0#8 ++ 4#8 : U16).toNat + 8 = 12; decide
  · show (0#8 ++ 0#8 ++ 0#8 ++ 0#8 : U32) = 0; decide
  · show (seq.extractLsb' 8 8 ++ seq.extractLsb' 0 8 : U16) = seq
    exact (cat16 seq).symm

/-- The fields of the GTP-U header at `o`. -/
def answerAt (f : List U8) (o : Nat) : GtpAnswer := ⟨oct f (o + 1), be32 f (o + 4), (oct f o).getLsbD 1, be16 f (o + 8)⟩

/-- **C53, between two UPFs.** The request of one UPF's path manager, in any frame that reaches another UPF, is answered by that UPF's
forwarding plane with a message that the path manager takes, and that has the sequence number of the request. -/
theorem C53_between_upfs (e : Env) (s : PS) (seq : U16) (h : IsGtpu e s.frame) (hu : 34 ≤ l4Off s.frame)
    (hf : slice s.frame (gtpOff s.frame) 12 = echoRequest seq) (hl : gtpOff s.frame + 12 ≤ s.frame.length) :
    ∃ s', runPacket e s = (s', .ok .tx) ∧ be32 s'.frame 30 = be32 s.frame 26 ∧
      be16 s'.frame (l4Off s.frame + 2) = be16 s.frame (l4Off s.frame) ∧
      (EchoFate.answer (answerAt s'.frame (gtpOff s.frame))).IsResponse ∧ (answerAt s'.frame (gtpOff s.frame)).seq = seq := by
  have ho : ∀ i, i < 12 → oct s.frame (gtpOff s.frame + i) = (echoRequest seq).getD i 0 := by
    intro i hi
    rw [← hf]
    unfold slice oct
    simp only [List.getD_eq_getElem?_getD, List.getElem?_take, List.getElem?_drop, hi, if_true]
  have h1 : IsGtpMsg e s.frame 1 := ⟨h, by omega, ho 1 (by omega)⟩
  obtain ⟨s', hr, hrep, _⟩ := C32_echo_answered e s h1 hu
  have ho0 : oct s.frame (gtpOff s.frame) = 0x32 := ho 0 (by omega)
  have hopt : gtpHasOpt s.frame = true := by unfold gtpHasOpt; rw [ho0]; decide
  have hteid : be32 s.frame (gtpOff s.frame + 4) = 0 := by
    unfold be32
    rw [ho 4 (by omega), show gtpOff s.frame + 4 + 1 = gtpOff s.frame + 5 by omega, ho 5 (by omega),
      show gtpOff s.frame + 4 + 2 = gtpOff s.frame + 6 by omega, ho 6 (by omega),
      show gtpOff s.frame + 4 + 3 = gtpOff s.frame + 7 by omega, ho 7 (by omega)]
    show (0#8 ++ 0#8 ++ 0#8 ++ 0#8 : U32) = 0
    decide
  refine ⟨s', hr, hrep.dst, hrep.dport, ?_, ?_⟩
  · refine (EchoFate.ok_iff _).1 ?_
    simp only [EchoFate.ok, answerAt, hrep.type, hrep.teid, hteid]
    decide
  · simp only [answerAt]
    rw [hrep.seq hopt]
    unfold be16
    rw [ho 8 (by omega), show gtpOff s.frame + 8 + 1 = gtpOff s.frame + 9 by omega, ho 9 (by omega)]
    show (seq.extractLsb' 8 8 ++ seq.extractLsb' 0 8 : U16) = seq
    exact (cat16 seq).symm

/-- Non-vacuity: a frame with the request number 5. -/
example : IsGtpu DemoDp.env DemoDp.echo ∧ 34 ≤ l4Off DemoDp.echo ∧ slice DemoDp.echo (gtpOff DemoDp.echo) 12 = echoRequest 5 ∧
    gtpOff DemoDp.echo + 12 ≤ DemoDp.echo.length := ⟨DemoDp.echo_msg.gtpu, by decide, by decide, by decide⟩

/-- Non-vacuity: two peers, one answering in the first and third tick. -/
example : ((PathManager.start ["a", "b"]).run
      [(Shuffle.id, fun p => if p = "a" then .answer ⟨2, 0, true, 0⟩ else .noAnswer), (Shuffle.rev, fun _ => .notSent),
       (Shuffle.id, fun p => if p = "a" then .answer ⟨2, 0, true, 1⟩ else .noAnswer)]).log.map (fun a => (a.peer, a.seq)) =
    [("b", 0), ("a", 1), ("a", 1), ("b", 0), ("a", 0), ("b", 0)] := by decide +kernel

end Eupf
