import Verif.Model.Descriptor

/-! C90: bytes that go through a descriptor arrive whole, whatever the pieces in which the system moves them.  C91: every file is closed once, by the object that owns it. -/

namespace Alfalfa

/-! ### What a user expects -/

/-- One of the calls of the system between two moments failed. -/
def CallFailed (answers : Nat → Answer) (d d' : Descriptor) : Prop := ∃ i, d.calls ≤ i ∧ i < d'.calls ∧ answers i = .fails

/-- One of the calls of the system between two moments moved nothing. -/
def CallMovedNothing (answers : Nat → Answer) (d d' : Descriptor) : Prop := ∃ i, d.calls ≤ i ∧ i < d'.calls ∧ answers i = .moves 0

/-! ### Reading -/

/-- What a call of `read` does if the end was not seen. -/
theorem read_cases (answers : Nat → Answer) (limit : Nat) (d : Descriptor) (he : d.ended = false) (hl : 0 < limit) :
    (answers d.calls = .fails ∧ d.read answers limit = (.error .system, { d with calls := d.calls + 1 })) ∨
    (d.rest = [] ∧ d.read answers limit = (.ok [], { d with ended := true, readCount := (d.readCount + 1) % 2 ^ 32, calls := d.calls + 1 })) ∨
    (∃ n, 0 < n ∧ n ≤ limit ∧ n ≤ d.rest.length ∧ d.read answers limit
      = (.ok (d.rest.take n), { d with rest := d.rest.drop n, readCount := (d.readCount + 1) % 2 ^ 32, calls := d.calls + 1 })) := by
  unfold Descriptor.read
  rw [he]
  simp only [Bool.false_eq_true, if_false]
  cases ha : answers d.calls with
  | fails => exact Or.inl ⟨rfl, rfl⟩
  | moves k =>
    right
    by_cases hr : d.rest = []
    · left; refine ⟨hr, ?_⟩
      simp [hr]
    · right
      have hp : 0 < d.rest.length := List.length_pos_iff.2 hr
      refine ⟨min (max k 1) (min (min bufferSize limit) d.rest.length), ?_, ?_, ?_, ?_⟩
      · unfold bufferSize; omega
      · omega
      · omega
      · have : min (max k 1) (min (min bufferSize limit) d.rest.length) ≠ 0 := by unfold bufferSize; omega
        simp only [beq_eq_false_iff_ne.2 this]

theorem exactlyMore_spec (answers : Nat → Answer) (length : Nat) : ∀ (fuel : Nat) (ret : List UInt8) (d : Descriptor), ret.length ≤ length → length - ret.length < fuel →
    match exactlyMore answers length fuel ret d with
    | (.ok b, d') => b.length = length ∧ ret ++ d.rest = b ++ d'.rest ∧ d'.ended = d.ended ∧ d'.sent = d.sent ∧ d.calls ≤ d'.calls
    | (.error e, d') => d'.sent = d.sent ∧ d.calls ≤ d'.calls ∧ ∃ got, ret ++ d.rest = got ++ d'.rest ∧ got.length < length ∧
        (e = .system ∧ CallFailed answers d d' ∨ e = .afterEnd ∧ d.ended = true ∨ e = .beforeTarget ∧ d.ended = false ∧ d'.rest = [] ∧ d'.ended = true) := by
  intro fuel
  induction fuel with
  | zero => intro ret d _ h; omega
  | succ fuel ih =>
    intro ret d hle hf
    unfold exactlyMore
    by_cases hlt : ret.length < length
    · rw [if_pos hlt]
      cases he : d.ended with
      | true =>
        have : d.read answers (length - ret.length) = (.error .afterEnd, d) := by unfold Descriptor.read; rw [he]; rfl
        rw [this]
        exact ⟨rfl, Nat.le_refl _, ret, rfl, hlt, Or.inr (Or.inl ⟨rfl, rfl⟩)⟩
      | false =>
        rcases read_cases answers (length - ret.length) d he (by omega) with ⟨ha, h⟩ | ⟨hr, h⟩ | ⟨n, h0, h1, h2, h⟩
        · rw [h]
          exact ⟨rfl, Nat.le_succ _, ret, rfl, hlt, Or.inl ⟨rfl, d.calls, Nat.le_refl _, Nat.lt_succ_self _, ha⟩⟩
        · rw [h]
          simp only [if_true]
          exact ⟨trivial, Nat.le_succ _, ret, rfl, hlt, Or.inr (Or.inr ⟨trivial, trivial, hr, trivial⟩)⟩
        · rw [h]
          simp only [he, Bool.false_eq_true, if_false]
          have hlen : (d.rest.take n).length = n := by rw [List.length_take]; omega
          have := ih (ret ++ d.rest.take n) { d with rest := d.rest.drop n, readCount := (d.readCount + 1) % 2 ^ 32, calls := d.calls + 1 }
            (by rw [List.length_append, hlen]; omega) (by rw [List.length_append, hlen]; omega)
          simp only [he, List.append_assoc, List.take_append_drop] at this
          split at this
          · obtain ⟨t1, t2, t3, t4, t5⟩ := this
            rename_i heq
            try rw [heq]
            exact ⟨t1, t2, t3, t4, by omega⟩
          · obtain ⟨t4, t5, got, t1, t2, t3⟩ := this
            rename_i heq
            try rw [heq]
            refine ⟨t4, by omega, got, t1, t2, ?_⟩
            rcases t3 with ⟨a, i, b1, b2, b3⟩ | ⟨_, b⟩ | ⟨a, _, b⟩
            · exact Or.inl ⟨a, i, Nat.le_trans (Nat.le_succ _) b1, b2, b3⟩
            · cases b
            · exact Or.inr (Or.inr ⟨a, trivial, b⟩)
    · rw [if_neg hlt, if_pos (by omega)]
      exact ⟨by omega, rfl, rfl, rfl, Nat.le_refl _⟩

/-- **C90.**  For every sequence of answers of the system, a call of `read_exactly` that returns gives the next bytes of the file, as many as were asked for, and one that throws
has a reason: a call of the system failed, the end was seen before, or the file ends before.  In every case the bytes that were taken are the first ones, so that the next
call goes on behind them. -/
theorem C90_read_exactly (answers : Nat → Answer) (n : Nat) (d : Descriptor) :
    match d.readExactly answers n with
    | (.ok b, d') => b.length = n ∧ d.rest = b ++ d'.rest ∧ d'.ended = d.ended ∧ d'.sent = d.sent
    | (.error e, d') => d'.sent = d.sent ∧ ∃ got, d.rest = got ++ d'.rest ∧ got.length < n ∧
        (e = .system ∧ CallFailed answers d d' ∨ e = .afterEnd ∧ d.ended = true ∨ e = .beforeTarget ∧ d.ended = false ∧ d'.rest = [] ∧ d'.ended = true) := by
  have h := exactlyMore_spec answers n (n + 1) [] d (Nat.zero_le _) (by simp)
  unfold Descriptor.readExactly
  split at h <;> rename_i heq <;> try rw [heq]
  · exact ⟨h.1, by simpa using h.2.1, h.2.2.1, h.2.2.2.1⟩
  · obtain ⟨h1, _, got, h2, h3⟩ := h
    exact ⟨h1, got, by simpa using h2, h3⟩

/-- Ten bytes in pieces of at most three: a read of seven of them takes three calls. -/
example : (Descriptor.readExactly (fun _ => .moves 3) 7 { rest := [1, 2, 3, 4, 5, 6, 7, 8, 9, 10] }) =
    (.ok [1, 2, 3, 4, 5, 6, 7], { rest := [8, 9, 10], readCount := 3, calls := 3 }) := by decide
example : (Descriptor.readExactly (fun i => if i = 2 then .fails else .moves 3) 7 { rest := [1, 2, 3, 4, 5, 6, 7, 8, 9, 10] }).1 = .error .system := by decide
example : (Descriptor.readExactly (fun _ => .moves 3) 7 { rest := [1, 2, 3, 4] }).1 = .error .beforeTarget := by decide

theorem lineMore_spec (answers : Nat → Answer) : ∀ (fuel : Nat) (ret : List UInt8) (d : Descriptor), d.rest.length < fuel → 10 ∉ ret →
    match lineMore answers fuel ret d with
    | (.ok b, d') => 10 ∉ b ∧ (ret ++ d.rest = b ++ 10 :: d'.rest ∧ d'.ended = false ∨ ret ++ d.rest = b ∧ d'.rest = [] ∧ d'.ended = true) ∧ d.ended = false ∧ d'.sent = d.sent
    | (.error e, d') => d'.sent = d.sent ∧ ∃ got, ret ++ d.rest = got ++ d'.rest ∧ 10 ∉ got ∧ (e = .system ∧ CallFailed answers d d' ∨ e = .afterEnd ∧ d.ended = true) := by
  intro fuel
  induction fuel with
  | zero => intro ret d h; omega
  | succ fuel ih =>
    intro ret d hf hret
    unfold lineMore
    cases he : d.ended with
    | true =>
      have : d.read answers 1 = (.error .afterEnd, d) := by unfold Descriptor.read; rw [he]; rfl
      rw [this]
      exact ⟨rfl, ret, rfl, hret, Or.inr ⟨rfl, rfl⟩⟩
    | false =>
      rcases read_cases answers 1 d he (by omega) with ⟨ha, h⟩ | ⟨hr, h⟩ | ⟨n, h0, h1, h2, h⟩
      · rw [h]
        exact ⟨rfl, ret, rfl, hret, Or.inl ⟨rfl, d.calls, Nat.le_refl _, Nat.lt_succ_self _, ha⟩⟩
      · rw [h]
        simp only [true_or, if_true]
        exact ⟨hret, Or.inr ⟨by rw [hr, List.append_nil], hr, trivial⟩, trivial, trivial⟩
      · obtain rfl : n = 1 := by omega
        obtain ⟨c, rest, hc⟩ : ∃ c rest, d.rest = c :: rest := by
          cases hd : d.rest with
          | nil => rw [hd] at h2; simp at h2
          | cons c rest => exact ⟨c, rest, rfl⟩
        rw [h, hc]
        simp only [he, Bool.false_eq_true, false_or, List.take_succ_cons, List.take_zero, List.drop_succ_cons, List.drop_zero, List.cons.injEq, and_true]
        by_cases h10 : c = 10
        · rw [if_pos h10]
          simp [hret, h10]
        · rw [if_neg h10]
          have := ih (ret ++ [c]) { d with rest := rest, readCount := (d.readCount + 1) % 2 ^ 32, calls := d.calls + 1 }
            (by rw [hc, List.length_cons] at hf; exact Nat.lt_of_succ_lt_succ hf)
            (by simp only [List.mem_append, List.mem_singleton, not_or]; exact ⟨hret, fun h => h10 h.symm⟩)
          simp only [he, List.append_assoc, List.singleton_append] at this
          split at this <;> rename_i heq <;> try rw [heq]
          · exact this
          · obtain ⟨t4, got, t1, t2, t3⟩ := this
            refine ⟨t4, got, t1, t2, ?_⟩
            rcases t3 with ⟨a, i, b1, b2, b3⟩ | ⟨_, b⟩
            · exact Or.inl ⟨a, i, Nat.le_trans (Nat.le_succ _) b1, b2, b3⟩
            · cases b

/-- **C90.**  For every sequence of answers of the system, a line that is returned is what comes before the next end of a line, or all of the rest of a file that has no other, and
then the end has been seen; an exception has a reason. -/
theorem C90_getline (answers : Nat → Answer) (d : Descriptor) :
    match d.getline answers with
    | (.ok b, d') => 10 ∉ b ∧ (d.rest = b ++ 10 :: d'.rest ∧ d'.ended = false ∨ d.rest = b ∧ d'.rest = [] ∧ d'.ended = true) ∧ d.ended = false ∧ d'.sent = d.sent
    | (.error e, d') => d'.sent = d.sent ∧ ∃ got, d.rest = got ++ d'.rest ∧ 10 ∉ got ∧ (e = .system ∧ CallFailed answers d d' ∨ e = .afterEnd ∧ d.ended = true) := by
  have h := lineMore_spec answers (d.rest.length + 1) [] d (Nat.lt_succ_self _) (by simp)
  unfold Descriptor.getline
  split at h <;> rename_i heq
  · simpa using h
  · simpa using h

example : Descriptor.getline (fun _ => .moves 5) { rest := ascii "FRAME\nabc" } = (.ok (ascii "FRAME"), { rest := ascii "abc", readCount := 6, calls := 6 }) := by decide +kernel
example : (Descriptor.getline (fun _ => .moves 5) { rest := ascii "FRAM" }).2.ended = true := by decide +kernel

theorem splitLine_eq (a rest : List UInt8) (h : 10 ∉ a) : splitLine (a ++ 10 :: rest) = (a, rest, false) ∧ splitLine a = (a, [], true) := by
  induction a with
  | nil => exact ⟨rfl, rfl⟩
  | cons c a ih =>
    simp only [List.mem_cons, not_or] at h
    have hc : ¬ c = 10 := fun hh => h.1 hh.symm
    obtain ⟨i1, i2⟩ := ih h.2
    constructor
    · simp only [List.cons_append, splitLine, if_neg hc, i1]
    · simp only [splitLine, if_neg hc, i2]

/-- **C90.**  If no call of the system fails, the pieces in which it moves the bytes make no difference: both functions do what they do in Model/Y4m, where a file is read without
pieces, and which the properties of raw video are about. -/
theorem C90_pieces_do_not_matter (answers : Nat → Answer) (d : Descriptor) (hf : ∀ i, answers i ≠ .fails) :
    (∀ n, match Y4MInput.readExactly ⟨d.rest, d.ended⟩ n with
      | .ok (b, i) => ∃ d', d.readExactly answers n = (.ok b, d') ∧ d'.rest = i.rest ∧ d'.ended = i.ended
      | .error _ => ∃ e d', d.readExactly answers n = (.error e, d')) ∧
    (match Y4MInput.getline ⟨d.rest, d.ended⟩ with
      | .ok (b, i) => ∃ d', d.getline answers = (.ok b, d') ∧ d'.rest = i.rest ∧ d'.ended = i.ended
      | .error _ => ∃ e d', d.getline answers = (.error e, d')) := by
  constructor
  · intro n
    have h := C90_read_exactly answers n d
    split at h <;> rename_i b d' heq
    · obtain ⟨h1, h2, h3, h4⟩ := h
      unfold Y4MInput.readExactly
      by_cases hn : n = 0
      · subst hn
        obtain rfl : b = [] := List.length_eq_zero_iff.1 h1
        rw [if_pos rfl]
        exact ⟨d', heq, by simpa using h2.symm, h3⟩
      · rw [if_neg hn]
        have hende : d.ended = false := by
          cases he : d.ended with
          | false => rfl
          | true =>
            exfalso
            have : d.readExactly answers n = (.error .afterEnd, d) := by
              unfold Descriptor.readExactly exactlyMore
              rw [if_pos (by simpa using Nat.pos_of_ne_zero hn)]
              have : d.read answers (n - ([] : List UInt8).length) = (.error .afterEnd, d) := by unfold Descriptor.read; rw [he]; rfl
              rw [this]
            rw [this] at heq
            cases heq
        simp only [hende, Bool.false_eq_true, if_false]
        rw [if_neg (by rw [h2, List.length_append]; omega)]
        refine ⟨d', ?_, ?_, by rw [h3, hende]⟩
        · rw [heq, h2, List.take_append_of_le_length (by omega), List.take_of_length_le (by omega)]
        · show d'.rest = d.rest.drop n
          rw [h2, List.drop_append_of_le_length (by omega), List.drop_of_length_le (by omega), List.nil_append]
    · obtain ⟨_, got, h2, h3, h4⟩ := h
      unfold Y4MInput.readExactly
      rw [if_neg (by omega)]
      rcases h4 with ⟨_, i, _, _, hi⟩ | ⟨_, he⟩ | ⟨_, he, hr, _⟩
      · exact absurd hi (hf i)
      · simp only [he, if_true]
        exact ⟨_, _, heq⟩
      · simp only [he, Bool.false_eq_true, if_false]
        rw [if_pos (by rw [h2, hr, List.append_nil]; exact h3)]
        exact ⟨_, _, heq⟩
  · have h := C90_getline answers d
    split at h <;> rename_i b d' heq
    · obtain ⟨h1, h2, h3, _⟩ := h
      unfold Y4MInput.getline
      simp only [h3, Bool.false_eq_true, if_false]
      rcases h2 with ⟨h2, h4⟩ | ⟨h2, h4, h5⟩
      · rw [h2, (splitLine_eq b d'.rest h1).1]
        exact ⟨d', heq, rfl, h4⟩
      · rw [h2, (splitLine_eq b [] h1).2]
        exact ⟨d', heq, h4, h5⟩
    · obtain ⟨_, got, h2, h3, h4⟩ := h
      rcases h4 with ⟨_, i, _, _, hi⟩ | ⟨_, he⟩
      · exact absurd hi (hf i)
      · unfold Y4MInput.getline
        simp only [he, if_true]
        exact ⟨_, _, heq⟩

example : ∀ i : Nat, (fun _ => Answer.moves 3) i ≠ .fails := fun _ => by simp

/-- A read of no bytes marks the end of a file that has not ended: the next read throws.  Nothing in the program reads that way. -/
theorem C90_empty_read_ends (answers : Nat → Answer) (d : Descriptor) (he : d.ended = false) (ha : answers d.calls ≠ .fails) (n : Nat) :
    (d.read answers 0).2.rest = d.rest ∧ ((d.read answers 0).2.read answers n).1 = .error .afterEnd := by
  cases h : answers d.calls with
  | fails => exact absurd h ha
  | moves k =>
    simp [Descriptor.read, he, h]

example : (Descriptor.read (fun _ => .moves 3) 0 { rest := [1, 2] }).2 = { rest := [1, 2], ended := true, readCount := 1, calls := 1 } := by decide

/-! ### Writing -/

theorem callWrite_cases (answers : Nat → Answer) (b : List UInt8) (d : Descriptor) (hb : b ≠ []) :
    (answers d.calls = .fails ∧ d.callWrite answers b = (.error .system, { d with calls := d.calls + 1 })) ∨
    (answers d.calls = .moves 0 ∧ d.callWrite answers b = (.ok 0, { d with calls := d.calls + 1 })) ∨
    (∃ n, 0 < n ∧ n ≤ b.length ∧ d.callWrite answers b = (.ok n, { d with sent := d.sent ++ b.take n, calls := d.calls + 1 })) := by
  unfold Descriptor.callWrite
  have hp : 0 < b.length := List.length_pos_iff.2 hb
  cases ha : answers d.calls with
  | fails => exact Or.inl ⟨rfl, rfl⟩
  | moves k =>
    right
    by_cases hk : k = 0
    · subst hk; left; simp
    · right
      refine ⟨min k b.length, by omega, by omega, ?_⟩
      simp only [← List.take_eq_take_min]

theorem writeChunkMore_spec (answers : Nat → Answer) : ∀ (fuel : Nat) (b : List UInt8) (d : Descriptor), b.length < fuel →
    match writeChunkMore answers fuel b d with
    | (.ok (), d') => d'.sent = d.sent ++ b ∧ d'.rest = d.rest ∧ d'.ended = d.ended ∧ d'.writeCount = d.writeCount
    | (.error e, d') => d'.rest = d.rest ∧ d'.ended = d.ended ∧ ∃ p q, b = p ++ q ∧ q ≠ [] ∧ d'.sent = d.sent ++ p ∧
        (e = .system ∧ CallFailed answers d d' ∨ e = .returnedZero ∧ CallMovedNothing answers d d') := by
  intro fuel
  induction fuel with
  | zero => intro b d h; omega
  | succ fuel ih =>
    intro b d hf
    unfold writeChunkMore
    by_cases hb : b = []
    · subst hb; simp
    · have hp : 0 < b.length := List.length_pos_iff.2 hb
      rw [if_pos hp]
      rcases callWrite_cases answers b d hb with ⟨ha, h⟩ | ⟨ha, h⟩ | ⟨n, h0, h1, h⟩
      · rw [h]
        exact ⟨rfl, rfl, [], b, rfl, hb, by simp, Or.inl ⟨rfl, d.calls, Nat.le_refl _, Nat.lt_succ_self _, ha⟩⟩
      · rw [h]
        simp only [if_true]
        exact ⟨trivial, trivial, [], b, rfl, hb, by simp, Or.inr ⟨trivial, d.calls, Nat.le_refl _, Nat.lt_succ_self _, ha⟩⟩
      · rw [h]
        simp only [if_neg (Nat.pos_iff_ne_zero.1 h0)]
        have := ih (b.drop n) { d with sent := d.sent ++ b.take n, calls := d.calls + 1 } (by rw [List.length_drop]; omega)
        simp only [List.append_assoc, List.take_append_drop] at this
        split at this <;> rename_i heq <;> try rw [heq]
        · exact this
        · obtain ⟨t1, t2, p, q, t3, t4, t5, t6⟩ := this
          refine ⟨t1, t2, b.take n ++ p, q, by rw [List.append_assoc, ← t3, List.take_append_drop], t4, by rw [t5], ?_⟩
          rcases t6 with ⟨a, i, b1, b2, b3⟩ | ⟨a, i, b1, b2, b3⟩
          · exact Or.inl ⟨a, i, Nat.le_trans (Nat.le_succ _) b1, b2, b3⟩
          · exact Or.inr ⟨a, i, Nat.le_trans (Nat.le_succ _) b1, b2, b3⟩

/-- **C90.**  For every sequence of answers of the system, a write of a `Chunk` that returns has sent all of it, once and in order, and one that throws has sent a beginning of it
and has a reason: a call of the system failed or took nothing. -/
theorem C90_write_chunk (answers : Nat → Answer) (b : List UInt8) (d : Descriptor) :
    match d.writeChunk answers b with
    | (.ok (), d') => d'.sent = d.sent ++ b ∧ d'.rest = d.rest ∧ d'.ended = d.ended ∧ d'.writeCount = (d.writeCount + 1) % 2 ^ 32
    | (.error e, d') => d'.rest = d.rest ∧ d'.ended = d.ended ∧ ∃ p q, b = p ++ q ∧ q ≠ [] ∧ d'.sent = d.sent ++ p ∧
        (e = .system ∧ CallFailed answers d d' ∨ e = .returnedZero ∧ CallMovedNothing answers d d') := by
  have h := writeChunkMore_spec answers (b.length + 1) b d (Nat.lt_succ_self _)
  unfold Descriptor.writeChunk
  split at h <;> rename_i heq <;> try rw [heq]
  · exact ⟨h.1, h.2.1, h.2.2.1, by rw [h.2.2.2]⟩
  · exact h

example : Descriptor.writeChunk (fun _ => .moves 2) [1, 2, 3, 4, 5] { sent := [9] } = (.ok (), { sent := [9, 1, 2, 3, 4, 5], writeCount := 1, calls := 3 }) := by decide
example : Descriptor.writeChunk (fun i => if i = 1 then .fails else .moves 2) [1, 2, 3, 4, 5] {} = (.error .system, { sent := [1, 2], calls := 2 }) := by decide

theorem writeTextMore_spec (answers : Nat → Answer) (all : Bool) : ∀ (fuel : Nat) (b : List UInt8) (d : Descriptor), b.length < fuel →
    match writeTextMore answers all fuel b d with
    | (.ok left, d') => d'.rest = d.rest ∧ d'.ended = d.ended ∧ ∃ p, p ≠ [] ∧ b = p ++ left ∧ d'.sent = d.sent ++ p ∧ (all = true → left = [])
    | (.error e, d') => d'.rest = d.rest ∧ d'.ended = d.ended ∧ ∃ p q, b = p ++ q ∧ d'.sent = d.sent ++ p ∧
        (e = .nothingToWrite ∧ b = [] ∨ q ≠ [] ∧ e = .system ∧ CallFailed answers d d' ∨ q ≠ [] ∧ e = .returnedZero ∧ CallMovedNothing answers d d') := by
  intro fuel
  induction fuel with
  | zero => intro b d h; omega
  | succ fuel ih =>
    intro b d hf
    unfold writeTextMore Descriptor.writeSome
    by_cases hb : b = []
    · subst hb
      simp only [if_true]
      exact ⟨trivial, trivial, [], [], rfl, by simp, Or.inl ⟨trivial, trivial⟩⟩
    · rw [if_neg hb]
      have hp : 0 < b.length := List.length_pos_iff.2 hb
      rcases callWrite_cases answers b d hb with ⟨ha, h⟩ | ⟨ha, h⟩ | ⟨n, h0, h1, h⟩
      · rw [h]
        exact ⟨rfl, rfl, [], b, rfl, by simp, Or.inr (Or.inl ⟨hb, rfl, d.calls, Nat.le_refl _, Nat.lt_succ_self _, ha⟩)⟩
      · rw [h]
        simp only [if_true]
        exact ⟨trivial, trivial, [], b, rfl, by simp, Or.inr (Or.inr ⟨hb, trivial, d.calls, Nat.le_refl _, Nat.lt_succ_self _, ha⟩)⟩
      · rw [h]
        simp only [if_neg (Nat.pos_iff_ne_zero.1 h0)]
        have hne : b.take n ≠ [] := by
          intro hh
          have : (b.take n).length = 0 := by rw [hh]; rfl
          rw [List.length_take] at this; omega
        by_cases hc : all = true ∧ b.drop n ≠ []
        · rw [if_pos hc]
          have := ih (b.drop n) { d with sent := d.sent ++ b.take n, calls := d.calls + 1, writeCount := (d.writeCount + 1) % 2 ^ 32 } (by rw [List.length_drop]; omega)
          simp only [List.append_assoc] at this
          split at this <;> rename_i heq <;> try rw [heq]
          · obtain ⟨t1, t2, p, t3, t4, t5, t6⟩ := this
            exact ⟨t1, t2, b.take n ++ p, by simp [hne], by rw [List.append_assoc, ← t4, List.take_append_drop], t5, t6⟩
          · obtain ⟨t1, t2, p, q, t3, t5, t6⟩ := this
            refine ⟨t1, t2, b.take n ++ p, q, by rw [List.append_assoc, ← t3, List.take_append_drop], by rw [t5], ?_⟩
            rcases t6 with ⟨a, ha⟩ | ⟨hq, a, i, b1, b2, b3⟩ | ⟨hq, a, i, b1, b2, b3⟩
            · exact absurd ha hc.2
            · exact Or.inr (Or.inl ⟨hq, a, i, Nat.le_trans (Nat.le_succ _) b1, b2, b3⟩)
            · exact Or.inr (Or.inr ⟨hq, a, i, Nat.le_trans (Nat.le_succ _) b1, b2, b3⟩)
        · rw [if_neg hc]
          refine ⟨rfl, rfl, b.take n, hne, (List.take_append_drop n b).symm, rfl, ?_⟩
          intro ha
          exact Classical.byContradiction fun hh => hc ⟨ha, hh⟩

/-- **C90.**  For every sequence of answers of the system, a write of a string that returns has sent all of it, once and in order, or, if the caller asked for no more, some of it,
and gives what is left; one that throws has sent a beginning of it and has a reason: the string is empty, or a call of the system failed or took nothing. -/
theorem C90_write_text (answers : Nat → Answer) (all : Bool) (b : List UInt8) (d : Descriptor) :
    match d.writeText answers all b with
    | (.ok left, d') => d'.rest = d.rest ∧ d'.ended = d.ended ∧ ∃ p, p ≠ [] ∧ b = p ++ left ∧ d'.sent = d.sent ++ p ∧ (all = true → left = [])
    | (.error e, d') => d'.rest = d.rest ∧ d'.ended = d.ended ∧ ∃ p q, b = p ++ q ∧ d'.sent = d.sent ++ p ∧
        (e = .nothingToWrite ∧ b = [] ∨ q ≠ [] ∧ e = .system ∧ CallFailed answers d d' ∨ q ≠ [] ∧ e = .returnedZero ∧ CallMovedNothing answers d d') :=
  writeTextMore_spec answers all (b.length + 1) b d (Nat.lt_succ_self _)

example : Descriptor.writeText (fun _ => .moves 4) true (ascii "FRAME\n") {} = (.ok [], { sent := ascii "FRAME\n", writeCount := 2, calls := 2 }) := by decide +kernel
example : Descriptor.writeText (fun _ => .moves 4) false (ascii "FRAME\n") {} = (.ok (ascii "E\n"), { sent := ascii "FRAM", writeCount := 1, calls := 1 }) := by decide +kernel

/-- The two ways to write differ on nothing at all: an empty `Chunk` is written, an empty string is an error. -/
theorem C90_empty_text (answers : Nat → Answer) (all : Bool) (d : Descriptor) :
    (d.writeText answers all []).1 = .error .nothingToWrite ∧ (d.writeChunk answers []).1 = .ok () := ⟨rfl, rfl⟩

/-! ### Both ends -/

/-- Several buffers, one after another, as long as nothing is thrown. -/
def writeChunks (answers : Nat → Answer) : List (List UInt8) → Descriptor → Except TransferError Unit × Descriptor
  | [], d => (.ok (), d)
  | b :: bs, d => match d.writeChunk answers b with
    | (.error e, d) => (.error e, d)
    | (.ok (), d) => writeChunks answers bs d

/-- Several reads, one after another, as long as nothing is thrown. -/
def readAll (answers : Nat → Answer) : List Nat → Descriptor → Except TransferError (List (List UInt8)) × Descriptor
  | [], d => (.ok [], d)
  | n :: ns, d => match d.readExactly answers n with
    | (.error e, d) => (.error e, d)
    | (.ok b, d) => match readAll answers ns d with
      | (.error e, d) => (.error e, d)
      | (.ok bs, d) => (.ok (b :: bs), d)

theorem writeChunks_sent (answers : Nat → Answer) (hf : ∀ i, answers i ≠ .fails ∧ answers i ≠ .moves 0) : ∀ (bs : List (List UInt8)) (d : Descriptor),
    (writeChunks answers bs d).1 = .ok () ∧ (writeChunks answers bs d).2.sent = d.sent ++ bs.flatten := by
  intro bs
  induction bs with
  | nil => intro d; exact ⟨rfl, by simp [writeChunks]⟩
  | cons b bs ih =>
    intro d
    have h := C90_write_chunk answers b d
    unfold writeChunks
    split at h <;> rename_i heq <;> try rw [heq]
    · have := ih (Prod.snd (Descriptor.writeChunk answers b d))
      rw [heq] at this
      refine ⟨this.1, ?_⟩
      simp only [this.2, h.1, List.flatten_cons, List.append_assoc]
    · obtain ⟨_, _, _, _, _, _, _, h⟩ := h
      rcases h with ⟨_, i, _, _, hi⟩ | ⟨_, i, _, _, hi⟩
      · exact absurd hi (hf i).1
      · exact absurd hi (hf i).2

theorem readAll_got (answers : Nat → Answer) (hf : ∀ i, answers i ≠ .fails) : ∀ (bs : List (List UInt8)) (d : Descriptor) (more : List UInt8), d.ended = false →
    d.rest = bs.flatten ++ more → (readAll answers (bs.map List.length) d).1 = .ok bs ∧ (readAll answers (bs.map List.length) d).2.rest = more := by
  intro bs
  induction bs with
  | nil => intro d more _ h; exact ⟨rfl, by simpa [readAll] using h⟩
  | cons b bs ih =>
    intro d more he hr
    have h := C90_read_exactly answers b.length d
    simp only [List.map_cons, readAll]
    split at h <;> rename_i x d' heq <;> try rw [heq]
    · obtain ⟨h1, h2, h3, h4⟩ := h
      rw [hr, List.flatten_cons, List.append_assoc] at h2
      obtain ⟨h5, h6⟩ := List.append_inj h2 h1.symm
      have := ih d' more (by rw [h3, he]) h6.symm
      obtain ⟨t1, t2⟩ := this
      subst h5
      cases ha : readAll answers (bs.map List.length) d' with
      | mk r d'' =>
        rw [ha] at t1 t2
        obtain rfl : r = .ok bs := t1
        simp only [ha]
        exact ⟨trivial, t2⟩
    · exfalso
      obtain ⟨_, got, h2, h3, h4⟩ := h
      rcases h4 with ⟨_, i, _, _, hi⟩ | ⟨_, hh⟩ | ⟨_, _, hh, _⟩
      · exact hf i hi
      · rw [he] at hh; cases hh
      · rw [hh, List.append_nil] at h2
        rw [← h2, hr] at h3
        simp at h3
        omega

/-- **C90.**  Buffers that are written at one end of a connection and read at the other in the same lengths arrive as they were, whatever the pieces in which the system moves their
bytes at both ends. -/
theorem C90_both_ends (out inn : Nat → Answer) (ho : ∀ i, out i ≠ .fails ∧ out i ≠ .moves 0) (hi : ∀ i, inn i ≠ .fails) (bs : List (List UInt8)) (w r : Descriptor)
    (hw : w.sent = []) (he : r.ended = false) (hr : r.rest = (writeChunks out bs w).2.sent) :
    (writeChunks out bs w).1 = .ok () ∧ (readAll inn (bs.map List.length) r).1 = .ok bs ∧ (readAll inn (bs.map List.length) r).2.rest = [] := by
  obtain ⟨h1, h2⟩ := writeChunks_sent out ho bs w
  rw [h2, hw, List.nil_append] at hr
  exact ⟨h1, readAll_got inn hi bs r [] he (by simpa using hr)⟩

example : (writeChunks (fun _ => .moves 2) [[1, 2, 3], [], [4, 5, 6, 7, 8]] {}).2.sent = [1, 2, 3, 4, 5, 6, 7, 8] ∧
    (readAll (fun _ => .moves 3) [3, 0, 5] { rest := [1, 2, 3, 4, 5, 6, 7, 8] }).1 = .ok [[1, 2, 3], [], [4, 5, 6, 7, 8]] := by decide

/-! ### Owners -/

/-- Objects that hold a file or nothing, `none` once destroyed; the files that were closed; how many files there were. -/
structure Owners where
  objects : List (Option (Option Nat)) := []
  closed : List Nat := []
  files : Nat := 0
deriving Repr, DecidableEq

/-- What each operation should do, with files in place of numbers.  The files that are there at the start have the numbers under which they are open. -/
def Owners.step (o : Owners) : DescriptorOp → Owners × DescriptorOutcome
  | .create => ({ o with objects := o.objects ++ [some (some o.files)], files := o.files + 1 }, .done)
  | .adopt n => ({ o with objects := o.objects ++ [some (some n)] }, .done)
  | .move i => match o.objects.getD i none with
    | none => (o, .undefined)
    | some f => ({ o with objects := o.objects.set i (some none) ++ [some f] }, .done)
  | .use i => match o.objects.getD i none with
    | none => (o, .undefined)
    | some none => (o, .badNumber)
    | some (some f) => (o, .reached f)
  | .destroy i => match o.objects.getD i none with
    | none => (o, .undefined)
    | some none => ({ o with objects := o.objects.set i none }, .done)
    | some (some f) => ({ o with objects := o.objects.set i none, closed := o.closed ++ [f] }, .done)

def Owners.run (o : Owners) : List DescriptorOp → Owners × List DescriptorOutcome
  | [] => (o, [])
  | op :: ops => (((o.step op).1.run ops).1, (o.step op).2 :: ((o.step op).1.run ops).2)

/-- The numbers that a program takes over. -/
def adopted : List DescriptorOp → List Nat := List.filterMap fun
  | .adopt n => some n
  | _ => none

theorem getD_set_eq {α : Type} (l : List (Option α)) (i j : Nat) (x : Option α) :
    (l.set i x).getD j none = if j = i ∧ i < l.length then x else l.getD j none := by
  simp only [List.getD_eq_getElem?_getD, List.getElem?_set]
  by_cases h : i = j
  · subst h
    by_cases h2 : i < l.length
    · simp [h2]
    · simp [h2]
  · have : ¬ j = i := fun hh => h hh.symm
    simp [h, this]

theorem getD_snoc {α : Type} (l : List (Option α)) (j : Nat) (x : Option α) :
    (l ++ [x]).getD j none = if j = l.length then x else l.getD j none := by
  simp only [List.getD_eq_getElem?_getD]
  rcases Nat.lt_trichotomy j l.length with h | h | h
  · rw [List.getElem?_append_left h, if_neg (by omega)]
  · subst h; simp
  · rw [if_neg (by omega), List.getElem?_eq_none (by simp; omega), List.getElem?_eq_none (by omega)]

theorem lt_of_getD {α : Type} {l : List (Option α)} {j : Nat} {a : α} (h : l.getD j none = some a) : j < l.length := by
  refine Classical.byContradiction fun hh => ?_
  rw [List.getD_eq_getElem?_getD, List.getElem?_eq_none (by omega)] at h
  cases h

/-- The least free number is free, and the new file is the only change. -/
theorem openFile_table (p : Process) : p.table.getD p.openFile.2 none = none ∧
    ∀ m, p.openFile.1.table.getD m none = if m = p.openFile.2 then some p.files else p.table.getD m none := by
  unfold Process.openFile
  dsimp only
  by_cases h : p.table.findIdx (· == none) < p.table.length
  · rw [if_pos h]
    have hn : p.table[p.table.findIdx (· == none)] = none := by
      have := List.findIdx_getElem (w := h)
      simpa using this
    refine ⟨by rw [List.getD_eq_getElem?_getD, List.getElem?_eq_getElem h, hn]; rfl, ?_⟩
    intro m
    rw [getD_set_eq]
    simp only [h, and_true]
  · rw [if_neg h]
    have hl : p.table.findIdx (· == none) = p.table.length := Nat.le_antisymm List.findIdx_le_length (by omega)
    rw [hl]
    refine ⟨by simp, fun m => getD_snoc _ _ _⟩

/-- How the process and the owners belong together, while the numbers `free` may still be taken over. -/
structure TablesAgree (free : List Nat) (p : Process) (o : Owners) : Prop where
  files : o.files = p.files
  closed : o.closed = p.closed
  length : o.objects.length = p.objects.length
  objects : ∀ i, o.objects.getD i none = (p.objects.getD i none).map fun n => n.bind fun n => p.table.getD n none
  live : ∀ i n, p.objects.getD i none = some (some n) → p.table.getD n none ≠ none
  distinct : ∀ i j n, p.objects.getD i none = some (some n) → p.objects.getD j none = some (some n) → i = j
  free : ∀ n ∈ free, p.table.getD n none = some n ∧ ∀ i, p.objects.getD i none ≠ some (some n)
  injective : ∀ m n f, p.table.getD m none = some f → p.table.getD n none = some f → m = n
  fresh : ∀ n f, p.table.getD n none = some f → f < p.files ∧ f ∉ p.closed
  once : p.closed.Nodup
  open_ : ∀ f, f < p.files → f ∉ p.closed → ∃ n, p.table.getD n none = some f
  old : ∀ f ∈ p.closed, f < p.files

theorem TablesAgree.start (k : Nat) : TablesAgree (List.range k) (Process.start k) { files := k } := by
  have ht : ∀ n f, (Process.start k).table.getD n none = some f ↔ n = f ∧ f < k := by
    intro n f
    unfold Process.start
    simp only [List.getD_eq_getElem?_getD, List.getElem?_map]
    by_cases h : n < k
    · rw [List.getElem?_range h]
      simp only [Option.map_some, Option.getD_some, Option.some.injEq]
      omega
    · rw [List.getElem?_eq_none (by simpa using Nat.le_of_not_lt h)]
      simp only [Option.map_none, Option.getD_none]
      constructor
      · intro h; cases h
      · intro h'; omega
  have ho : ∀ i, (Process.start k).objects.getD i none = none := by intro i; rfl
  refine ⟨rfl, rfl, rfl, fun i => rfl, ?_, ?_, ?_, ?_, ?_, List.nodup_nil, ?_, ?_⟩
  · intro i n h; rw [ho] at h; cases h
  · intro i j n h; rw [ho] at h; cases h
  · intro n hn
    exact ⟨(ht n n).2 ⟨rfl, List.mem_range.1 hn⟩, fun i => by rw [ho]; exact nofun⟩
  · intro m n f h1 h2
    rw [((ht m f).1 h1).1, ((ht n f).1 h2).1]
  · intro n f h
    exact ⟨((ht n f).1 h).2, List.not_mem_nil⟩
  · intro f hf _
    exact ⟨f, (ht f f).2 ⟨rfl, hf⟩⟩
  · intro f hf; cases hf

/-- The numbers that may still be taken over. -/
def stillFree (free : List Nat) : DescriptorOp → List Nat
  | .adopt n => free.filter (· != n)
  | _ => free

/-- One operation keeps the two together, and has the same outcome, which is not the end of the program. -/
theorem TablesAgree.step {free : List Nat} {p : Process} {o : Owners} (h : TablesAgree free p o) (op : DescriptorOp) (hop : ∀ n, op = .adopt n → n ∈ free) :
    (p.step op).2 = (o.step op).2 ∧ (p.step op).2 ≠ .terminated ∧
    TablesAgree (stillFree free op) (p.step op).1 (o.step op).1 := by
  cases op with
  | create =>
    obtain ⟨hn, ht⟩ := openFile_table p
    refine ⟨rfl, nofun, ?_⟩
    have hfree : ∀ i m, p.objects.getD i none = some (some m) → m ≠ p.openFile.2 := by
      intro i m hi hm
      exact h.live i m hi (by rw [hm, hn])
    refine ⟨congrArg (· + 1) h.files, h.closed, by simp [Owners.step, Process.step, h.length], ?_, ?_, ?_, ?_, ?_, ?_, h.once, ?_, ?_⟩
    · intro i
      simp only [Owners.step, Process.step]
      rw [getD_snoc, getD_snoc, h.length]
      by_cases hi : i = p.objects.length
      · rw [if_pos hi, if_pos hi]
        simp only [Option.map_some, Option.bind_some, ht, if_true, h.files]
      · rw [if_neg hi, if_neg hi, h.objects i]
        cases hx : p.objects.getD i none with
        | none => rfl
        | some n =>
          cases n with
          | none => rfl
          | some m => simp only [Option.map_some, Option.bind_some, ht, if_neg (hfree i m hx)]
    · intro i n
      simp only [Process.step]
      rw [getD_snoc]
      by_cases hi : i = p.objects.length
      · rw [if_pos hi]
        intro hh
        cases hh
        rw [ht, if_pos rfl]; exact nofun
      · rw [if_neg hi]
        intro hh
        rw [ht, if_neg (hfree i n hh)]
        exact h.live i n hh
    · intro i j n
      simp only [Process.step]
      rw [getD_snoc, getD_snoc]
      by_cases hi : i = p.objects.length <;> by_cases hj : j = p.objects.length
      · intro _ _; rw [hi, hj]
      · rw [if_pos hi, if_neg hj]
        intro h1 h2; cases h1
        exact absurd rfl (hfree j _ h2)
      · rw [if_neg hi, if_pos hj]
        intro h1 h2; cases h2
        exact absurd rfl (hfree i _ h1)
      · rw [if_neg hi, if_neg hj]
        exact h.distinct i j n
    · intro n hnf
      obtain ⟨f1, f2⟩ := h.free n hnf
      have hne : n ≠ p.openFile.2 := by rintro rfl; rw [hn] at f1; cases f1
      refine ⟨by simp only [Process.step]; rw [ht, if_neg hne, f1], ?_⟩
      intro i
      simp only [Process.step]
      rw [getD_snoc]
      by_cases hi : i = p.objects.length
      · rw [if_pos hi]; intro hh; cases hh; exact hne rfl
      · rw [if_neg hi]; exact f2 i
    · intro m n f
      simp only [Process.step]
      rw [ht, ht]
      by_cases hm : m = p.openFile.2 <;> by_cases hk : n = p.openFile.2
      · intro _ _; rw [hm, hk]
      · rw [if_pos hm, if_neg hk]
        intro h1 h2; cases h1
        exact absurd (h.fresh n _ h2).1 (Nat.lt_irrefl _)
      · rw [if_neg hm, if_pos hk]
        intro h1 h2; cases h2
        exact absurd (h.fresh m _ h1).1 (Nat.lt_irrefl _)
      · rw [if_neg hm, if_neg hk]; exact h.injective m n f
    · intro n f
      simp only [Process.step]
      rw [ht]
      show _ → f < p.files + 1 ∧ f ∉ p.closed
      by_cases hk : n = p.openFile.2
      · rw [if_pos hk]; intro hh; cases hh
        refine ⟨Nat.lt_succ_self _, fun hc => ?_⟩
        exact Nat.lt_irrefl _ (h.old _ hc)
      · rw [if_neg hk]; intro hh
        exact ⟨Nat.lt_succ_of_lt (h.fresh n f hh).1, (h.fresh n f hh).2⟩
    · intro f
      show f < p.files + 1 → f ∉ p.closed → _
      intro hf hc
      by_cases hk : f = p.files
      · exact ⟨p.openFile.2, by simp only [Process.step]; rw [ht, if_pos rfl, hk]⟩
      · obtain ⟨n, hn'⟩ := h.open_ f (by omega) hc
        refine ⟨n, ?_⟩
        simp only [Process.step]
        rw [ht, if_neg (by rintro rfl; rw [hn] at hn'; cases hn'), hn']
    · intro f hf
      exact Nat.lt_succ_of_lt (h.old f hf)
  | adopt n =>
    obtain ⟨f1, f2⟩ := h.free n (hop n rfl)
    refine ⟨rfl, nofun, ?_⟩
    refine ⟨h.files, h.closed, by simp [Owners.step, Process.step, h.length], ?_, ?_, ?_, ?_, h.injective, h.fresh, h.once, h.open_, h.old⟩
    · intro i
      simp only [Owners.step, Process.step]
      rw [getD_snoc, getD_snoc, h.length]
      by_cases hi : i = p.objects.length
      · rw [if_pos hi, if_pos hi]
        simp only [Option.map_some, Option.bind_some, f1]
      · rw [if_neg hi, if_neg hi, h.objects i]
    · intro i m
      simp only [Process.step]
      rw [getD_snoc]
      by_cases hi : i = p.objects.length
      · rw [if_pos hi]; intro hh; cases hh; rw [f1]; exact nofun
      · rw [if_neg hi]; exact h.live i m
    · intro i j m
      simp only [Process.step]
      rw [getD_snoc, getD_snoc]
      by_cases hi : i = p.objects.length <;> by_cases hj : j = p.objects.length
      · intro _ _; rw [hi, hj]
      · rw [if_pos hi, if_neg hj]; intro h1 h2; cases h1; exact absurd h2 (f2 j)
      · rw [if_neg hi, if_pos hj]; intro h1 h2; cases h2; exact absurd h1 (f2 i)
      · rw [if_neg hi, if_neg hj]; exact h.distinct i j m
    · intro m hm
      simp only [stillFree, List.mem_filter, bne_iff_ne, ne_eq] at hm
      obtain ⟨g1, g2⟩ := h.free m hm.1
      refine ⟨g1, ?_⟩
      intro i
      simp only [Process.step]
      rw [getD_snoc]
      by_cases hi : i = p.objects.length
      · rw [if_pos hi]; intro hh; cases hh; exact hm.2 rfl
      · rw [if_neg hi]; exact g2 i
  | move i =>
    have hi := h.objects i
    cases hx : p.objects.getD i none with
    | none =>
      rw [hx] at hi
      have e1 : p.step (.move i) = (p, .undefined) := by simp only [Process.step]; rw [hx]
      have e2 : o.step (.move i) = (o, .undefined) := by simp only [Owners.step]; rw [hi]; rfl
      rw [e1, e2]; exact ⟨rfl, nofun, h⟩
    | some x =>
      rw [hx] at hi
      have e1 : p.step (.move i) = ({ p with objects := p.objects.set i (some none) ++ [some x] }, .done) := by simp only [Process.step]; rw [hx]
      have e2 : o.step (.move i) = ({ o with objects := o.objects.set i (some none) ++ [some (x.bind fun n => p.table.getD n none)] }, .done) := by
        simp only [Owners.step]; rw [hi]; rfl
      have hlt := lt_of_getD hx
      rw [e1, e2]
      -- which object of before the number of an object comes from
      have key : ∀ j n, (p.objects.set i (some none) ++ [some x]).getD j none = some (some n) →
          (j = p.objects.length ∧ p.objects.getD i none = some (some n)) ∨ (j ≠ i ∧ j ≠ p.objects.length ∧ p.objects.getD j none = some (some n)) := by
        intro j n
        rw [getD_snoc, getD_set_eq, List.length_set]
        by_cases hj : j = p.objects.length
        · rw [if_pos hj]; intro hh; rw [hx, hh]; exact Or.inl ⟨hj, rfl⟩
        · rw [if_neg hj]
          by_cases hji : j = i
          · rw [if_pos ⟨hji, hlt⟩]; exact nofun
          · rw [if_neg (fun hh => hji hh.1)]; intro hh; exact Or.inr ⟨hji, hj, hh⟩
      refine ⟨rfl, nofun, h.files, h.closed, by simp [h.length], ?_, ?_, ?_, ?_, h.injective, h.fresh, h.once, h.open_, h.old⟩
      · intro j
        rw [getD_snoc, getD_snoc, getD_set_eq, getD_set_eq, List.length_set, List.length_set, h.length]
        by_cases hj : j = p.objects.length
        · rw [if_pos hj, if_pos hj]; rfl
        · rw [if_neg hj, if_neg hj]
          by_cases hji : j = i
          · rw [if_pos ⟨hji, hlt⟩, if_pos ⟨hji, hlt⟩]; rfl
          · rw [if_neg (fun hh => hji hh.1), if_neg (fun hh => hji hh.1), h.objects j]
      · intro j n hh
        rcases key j n hh with ⟨_, h1⟩ | ⟨_, _, h1⟩
        · exact h.live i n h1
        · exact h.live j n h1
      · intro j k n h1 h2
        rcases key j n h1 with ⟨a1, b1⟩ | ⟨a1, c1, b1⟩ <;> rcases key k n h2 with ⟨a2, b2⟩ | ⟨a2, c2, b2⟩
        · rw [a1, a2]
        · exact absurd (h.distinct k i n b2 b1) a2
        · exact absurd (h.distinct j i n b1 b2) a1
        · exact h.distinct j k n b1 b2
      · intro n hn
        refine ⟨(h.free n hn).1, ?_⟩
        intro j hh
        rcases key j n hh with ⟨_, h1⟩ | ⟨_, _, h1⟩
        · exact (h.free n hn).2 i h1
        · exact (h.free n hn).2 j h1
  | use i =>
    have hi := h.objects i
    cases hx : p.objects.getD i none with
    | none =>
      rw [hx] at hi
      have e1 : p.step (.use i) = (p, .undefined) := by simp only [Process.step]; rw [hx]
      have e2 : o.step (.use i) = (o, .undefined) := by simp only [Owners.step]; rw [hi]; rfl
      rw [e1, e2]; exact ⟨rfl, nofun, h⟩
    | some x =>
      cases x with
      | none =>
        rw [hx] at hi
        have e1 : p.step (.use i) = (p, .badNumber) := by simp only [Process.step]; rw [hx]
        have e2 : o.step (.use i) = (o, .badNumber) := by simp only [Owners.step]; rw [hi]; rfl
        rw [e1, e2]; exact ⟨rfl, nofun, h⟩
      | some n =>
        obtain ⟨f, hf⟩ := Option.ne_none_iff_exists'.1 (h.live i n hx)
        rw [hx] at hi
        simp only [Option.map_some, Option.bind_some, hf] at hi
        have e1 : p.step (.use i) = (p, .reached f) := by simp only [Process.step]; rw [hx]; simp only [hf]
        have e2 : o.step (.use i) = (o, .reached f) := by simp only [Owners.step]; rw [hi]
        rw [e1, e2]; exact ⟨rfl, nofun, h⟩
  | destroy i =>
    have hi := h.objects i
    cases hx : p.objects.getD i none with
    | none =>
      rw [hx] at hi
      have e1 : p.step (.destroy i) = (p, .undefined) := by simp only [Process.step]; rw [hx]
      have e2 : o.step (.destroy i) = (o, .undefined) := by simp only [Owners.step]; rw [hi]; rfl
      rw [e1, e2]; exact ⟨rfl, nofun, h⟩
    | some x =>
      have hlt := lt_of_getD hx
      have key : ∀ j y, (p.objects.set i none).getD j none = some y → j ≠ i ∧ p.objects.getD j none = some y := by
        intro j y
        rw [getD_set_eq]
        by_cases hji : j = i
        · rw [if_pos ⟨hji, hlt⟩]; exact nofun
        · rw [if_neg (fun hh => hji hh.1)]; exact fun hh => ⟨hji, hh⟩
      cases x with
      | none =>
        rw [hx] at hi
        have e1 : p.step (.destroy i) = ({ p with objects := p.objects.set i none }, .done) := by simp only [Process.step]; rw [hx]
        have e2 : o.step (.destroy i) = ({ o with objects := o.objects.set i none }, .done) := by simp only [Owners.step]; rw [hi]; rfl
        rw [e1, e2]
        refine ⟨rfl, nofun, h.files, h.closed, by simp [h.length], ?_, ?_, ?_, ?_, h.injective, h.fresh, h.once, h.open_, h.old⟩
        · intro j
          rw [getD_set_eq, getD_set_eq, h.length]
          by_cases hji : j = i
          · rw [if_pos ⟨hji, hlt⟩, if_pos ⟨hji, hlt⟩]; rfl
          · rw [if_neg (fun hh => hji hh.1), if_neg (fun hh => hji hh.1), h.objects j]
        · intro j n hh; exact h.live j n (key j _ hh).2
        · intro j k n h1 h2; exact h.distinct j k n (key j _ h1).2 (key k _ h2).2
        · intro n hn; exact ⟨(h.free n hn).1, fun j hh => (h.free n hn).2 j (key j _ hh).2⟩
      | some n =>
        obtain ⟨f, hf⟩ := Option.ne_none_iff_exists'.1 (h.live i n hx)
        rw [hx] at hi
        simp only [Option.map_some, Option.bind_some, hf] at hi
        have e1 : p.step (.destroy i) = ({ p with table := p.table.set n none, closed := p.closed ++ [f], objects := p.objects.set i none }, .done) := by
          simp only [Process.step, Process.close]; rw [hx]; simp only [hf]
        have e2 : o.step (.destroy i) = ({ o with objects := o.objects.set i none, closed := o.closed ++ [f] }, .done) := by simp only [Owners.step]; rw [hi]
        have hnl := lt_of_getD hf
        have ht : ∀ m, (p.table.set n none).getD m none = if m = n then none else p.table.getD m none := by
          intro m; rw [getD_set_eq]; simp [hnl]
        rw [e1, e2]
        refine ⟨rfl, nofun, h.files, congrArg (· ++ [f]) h.closed, by simp [h.length], ?_, ?_, ?_, ?_, ?_, ?_, ?_, ?_, ?_⟩
        · intro j
          rw [getD_set_eq, getD_set_eq, h.length]
          by_cases hji : j = i
          · rw [if_pos ⟨hji, hlt⟩, if_pos ⟨hji, hlt⟩]; rfl
          · rw [if_neg (fun hh => hji hh.1), if_neg (fun hh => hji hh.1), h.objects j]
            cases hy : p.objects.getD j none with
            | none => rfl
            | some y =>
              cases y with
              | none => rfl
              | some m =>
                simp only [Option.map_some, Option.bind_some, ht]
                rw [if_neg]
                rintro rfl
                exact hji (h.distinct j i m hy hx)
        · intro j m hh
          obtain ⟨h1, h2⟩ := key j _ hh
          show (p.table.set n none).getD m none ≠ none
          rw [ht, if_neg (by rintro rfl; exact h1 (h.distinct j i m h2 hx))]
          exact h.live j m h2
        · intro j k m h1 h2; exact h.distinct j k m (key j _ h1).2 (key k _ h2).2
        · intro m hm
          obtain ⟨g1, g2⟩ := h.free m hm
          refine ⟨?_, fun j hh => g2 j (key j _ hh).2⟩
          show (p.table.set n none).getD m none = some m
          rw [ht, if_neg (by rintro rfl; exact g2 i hx), g1]
        · intro a b g
          show (p.table.set n none).getD a none = some g → (p.table.set n none).getD b none = some g → a = b
          rw [ht, ht]
          intro h1 h2
          split at h1
          · cases h1
          · split at h2
            · cases h2
            · exact h.injective a b g h1 h2
        · intro m g
          show (p.table.set n none).getD m none = some g → g < p.files ∧ g ∉ p.closed ++ [f]
          rw [ht]
          intro h1
          split at h1
          · cases h1
          · rename_i hmn
            refine ⟨(h.fresh m g h1).1, ?_⟩
            simp only [List.mem_append, List.mem_singleton, not_or]
            refine ⟨(h.fresh m g h1).2, ?_⟩
            rintro rfl
            exact hmn (h.injective m n g h1 hf)
        · show (p.closed ++ [f]).Nodup
          refine List.nodup_append.2 ⟨h.once, by simp, ?_⟩
          intro a ha b hb
          simp only [List.mem_singleton] at hb
          subst hb
          rintro rfl
          exact (h.fresh n a hf).2 ha
        · intro g
          show g < p.files → g ∉ p.closed ++ [f] → ∃ m, (p.table.set n none).getD m none = some g
          intro hg hc
          simp only [List.mem_append, List.mem_singleton, not_or] at hc
          obtain ⟨m, hm⟩ := h.open_ g hg hc.1
          refine ⟨m, ?_⟩
          rw [ht, if_neg (by rintro rfl; rw [hf] at hm; cases hm; exact hc.2 rfl), hm]
        · intro g hg
          rcases List.mem_append.1 hg with h1 | h1
          · exact h.old g h1
          · rw [List.mem_singleton.1 h1]; exact (h.fresh n f hf).1

theorem TablesAgree.mono {free free' : List Nat} {p : Process} {o : Owners} (h : TablesAgree free p o) (hs : ∀ n ∈ free', n ∈ free) : TablesAgree free' p o :=
  { h with free := fun n hn => h.free n (hs n hn) }

theorem TablesAgree.run : ∀ (ops : List DescriptorOp) {free : List Nat} {p : Process} {o : Owners}, TablesAgree free p o → (adopted ops).Nodup → (∀ n ∈ adopted ops, n ∈ free) →
    (p.run ops).2 = (o.run ops).2 ∧ DescriptorOutcome.terminated ∉ (p.run ops).2 ∧ TablesAgree [] (p.run ops).1 (o.run ops).1 := by
  intro ops
  induction ops with
  | nil => intro free p o h _ _; exact ⟨rfl, List.not_mem_nil, h.mono nofun⟩
  | cons op ops ih =>
    intro free p o h hnd hmem
    obtain ⟨h1, h2, h3⟩ := h.step op (by rintro n rfl; exact hmem n (by simp [adopted]))
    have hrun : p.run (op :: ops) = (((p.step op).1.run ops).1, (p.step op).2 :: ((p.step op).1.run ops).2) := by
      show (match p.step op with | (p, .terminated) => (p, [DescriptorOutcome.terminated]) | (p, o) => ((p.run ops).1, o :: (p.run ops).2)) = _
      cases hs : p.step op with
      | mk p' x =>
        rw [hs] at h2
        cases x <;> first | rfl | exact absurd rfl h2
    rw [hrun]
    have hrest : (adopted ops).Nodup ∧ ∀ n ∈ adopted ops, n ∈ stillFree free op := by
      cases op with
      | adopt n =>
        have : adopted (.adopt n :: ops) = n :: adopted ops := rfl
        rw [this] at hnd hmem
        refine ⟨(List.nodup_cons.1 hnd).2, ?_⟩
        intro m hm
        simp only [stillFree, List.mem_filter, bne_iff_ne, ne_eq]
        exact ⟨hmem m (List.mem_cons_of_mem _ hm), by rintro rfl; exact (List.nodup_cons.1 hnd).1 hm⟩
      | create => exact ⟨hnd, hmem⟩
      | move i => exact ⟨hnd, hmem⟩
      | use i => exact ⟨hnd, hmem⟩
      | destroy i => exact ⟨hnd, hmem⟩
    obtain ⟨i1, i2, i3⟩ := ih h3 hrest.1 hrest.2
    refine ⟨?_, ?_, i3⟩
    · show _ = (o.step op).2 :: ((o.step op).1.run ops).2
      rw [h1, i1]
    · simp only [List.mem_cons, not_or]
      exact ⟨fun hh => h2 hh.symm, i2⟩

/-- **C91.**  A program that takes over each of the numbers it was started with at most once, and otherwise opens, moves, uses and destroys descriptors in any order: every use
reaches the file that the object was made for or was moved to it, no matter how the system reuses numbers; no destructor ends the program; no file is closed twice; and the files
that are open are those that were not closed. -/
theorem C91_owners_partial (k : Nat) (ops : List DescriptorOp) (h1 : (adopted ops).Nodup) (h2 : ∀ n ∈ adopted ops, n < k) :
    ((Process.start k).run ops).2 = (Owners.run { files := k } ops).2 ∧ DescriptorOutcome.terminated ∉ ((Process.start k).run ops).2 ∧
    ((Process.start k).run ops).1.closed = (Owners.run { files := k } ops).1.closed ∧ ((Process.start k).run ops).1.closed.Nodup ∧
    ∀ f, some f ∈ ((Process.start k).run ops).1.table ↔ f < (Owners.run { files := k } ops).1.files ∧ f ∉ (Owners.run { files := k } ops).1.closed := by
  obtain ⟨a, b, c⟩ := TablesAgree.run ops (TablesAgree.start k) h1 (fun n hn => List.mem_range.2 (h2 n hn))
  refine ⟨a, b, c.closed.symm, c.once, ?_⟩
  intro f
  rw [c.closed, c.files]
  constructor
  · intro hf
    obtain ⟨n, hn, he⟩ := List.mem_iff_getElem.1 hf
    exact c.fresh n f (by rw [List.getD_eq_getElem?_getD, List.getElem?_eq_getElem hn, he]; rfl)
  · rintro ⟨hf, hc⟩
    obtain ⟨n, hn⟩ := c.open_ f hf hc
    have hl := lt_of_getD hn
    rw [List.getD_eq_getElem?_getD, List.getElem?_eq_getElem hl] at hn
    exact List.mem_iff_getElem.2 ⟨n, hl, by simpa using hn⟩

/-- Standard input is taken over and moved into a reader; a file is opened under number 3; the reader is destroyed; the next file gets number 0. -/
example : ((Process.start 3).run [.adopt 0, .move 0, .destroy 0, .create, .use 1, .use 2, .destroy 1, .create, .use 3, .destroy 2, .use 3]).2 =
    [.done, .done, .done, .done, .reached 0, .reached 3, .done, .done, .reached 4, .done, .reached 4] ∧
    ((Process.start 3).run [.adopt 0, .move 0, .destroy 0, .create, .use 1, .use 2, .destroy 1, .create, .use 3, .destroy 2, .use 3]).1.objects = [none, none, none, some (some 0)] := by
  decide

/-- **The code violates this if a number is taken over twice.**  The re-encoder that reads its video from standard input takes number 0 over for the reader, and again to wait for the
end of standard input (src/frontend/xc-enc.cc:244,307); the second object closes the number, the file of the state is opened and closed under it, and the destructor of the reader
ends the program. -/
theorem C91_standard_input_closed_twice :
    ((Process.start 3).run [.adopt 0, .move 0, .destroy 0, .use 1, .create, .adopt 0, .use 3, .destroy 3, .create, .destroy 4, .destroy 2, .destroy 1]).2 =
      [.done, .done, .done, .reached 0, .done, .done, .reached 0, .done, .done, .done, .done, .terminated] := by
  decide

/-- Worse, if a file is open under the number by then, it is that file that is closed, and the program is not told. -/
theorem C91_file_of_another_closed :
    ((Process.start 3).run [.adopt 0, .adopt 0, .destroy 1, .create, .use 2, .destroy 0, .use 2]).2 =
      [.done, .done, .done, .done, .reached 3, .done, .badNumber] ∧
    (Owners.run { files := 3 } [.adopt 0, .adopt 0, .destroy 1, .create, .use 2, .destroy 0, .use 2]).2 =
      [.done, .done, .done, .done, .reached 3, .done, .reached 3] := by
  decide

end Alfalfa
