import Verif.Model.Mapped
import Mathlib.Data.Nat.Bitwise
import Mathlib.Tactic.Ring

/-! C96: what is read of a file, through any part of it, is what the file holds. -/

namespace Alfalfa.Mapped

/-! ### What a user expects -/

/-- The memory that a chunk stands for can be read and holds these bytes. -/
structure Holds (load : Nat → Access Nat) (v : View) (bytes : List Nat) : Prop where
  size : v.size = bytes.length
  fits : v.size < 2 ^ 64
  byte : ∀ b ∈ bytes, b < 256
  load : ∀ i (h : i < bytes.length), load (v.buffer + i) = .ok bytes[i]

/-- A number from its bytes, the least significant first. -/
def valueOf (bytes : List Nat) : Nat := bytes.foldr (fun b n => b + 256 * n) 0

theorem littleEndian_eq (l : List Nat) : littleEndian l = valueOf l := by
  induction l with
  | nil => rfl
  | cons b l ih => rw [littleEndian, ih]; rfl

/-! ### Parts -/

theorem Holds.part {load : Nat → Access Nat} {v : View} {bytes : List Nat} (h : Holds load v bytes) {offset length : Nat} (hl : offset + length ≤ v.size) :
    Holds load ⟨v.buffer + offset, length⟩ ((bytes.drop offset).take length) := by
  have hs := h.size
  have hf := h.fits
  refine ⟨by simp; omega, by dsimp only; omega, fun b hb => h.byte b (List.mem_of_mem_drop (List.mem_of_mem_take hb)), fun i hi => ?_⟩
  have hi' : offset + i < bytes.length := by simp at hi; omega
  have := h.load (offset + i) hi'
  rw [← Nat.add_assoc] at this
  simpa using this

/-- **C96.**  A part of a chunk: if it is inside, it holds these bytes; otherwise there is an exception.  The sum of offset and length must be a 64-bit number. -/
theorem C96_part_partial {load : Nat → Access Nat} {v : View} {bytes : List Nat} (h : Holds load v bytes) {offset length : Nat} (hw : offset + length < 2 ^ 64) :
    (offset + length ≤ bytes.length → ∃ v', v.sub offset length = .ok v' ∧ Holds load v' ((bytes.drop offset).take length)) ∧
      (bytes.length < offset + length → v.sub offset length = .outOfRange) := by
  have hs := h.size
  unfold View.sub
  rw [Nat.mod_eq_of_lt hw]
  refine ⟨fun hl => ?_, fun hl => ?_⟩
  · rw [if_neg (by omega), if_neg (by omega)]
    exact ⟨_, rfl, h.part (by omega)⟩
  · split
    · rfl
    · rw [if_pos (by omega)]

/-- **C96.**  What is missing: if the sum does not fit, a part can be longer than the whole. -/
theorem C96_part_wraps : ∃ (v v' : View) (offset length : Nat), v.size < 2 ^ 64 ∧ offset < 2 ^ 64 ∧ length < 2 ^ 64 ∧ v.sub offset length = .ok v' ∧ v.size < v'.size :=
  ⟨⟨4096, 100⟩, ⟨4106, 2 ^ 64 - 5⟩, 10, 2 ^ 64 - 5, by decide, by decide, by decide, by decide, by decide⟩

/-- **C96.**  The rest of a chunk, for any offset. -/
theorem C96_rest {load : Nat → Access Nat} {v : View} {bytes : List Nat} (h : Holds load v bytes) (offset : Nat) :
    (offset ≤ bytes.length → ∃ v', v.from offset = .ok v' ∧ Holds load v' (bytes.drop offset)) ∧ (bytes.length < offset → v.from offset = .outOfRange) := by
  have hs := h.size
  have hf := h.fits
  unfold View.from
  refine ⟨fun hl => ?_, fun hl => ?_⟩
  · have e : (v.size + 2 ^ 64 - offset) % 2 ^ 64 = v.size - offset := by omega
    rw [e]
    obtain ⟨v', h1, h2⟩ := (C96_part_partial h (offset := offset) (length := v.size - offset) (by omega)).1 (by omega)
    rw [List.take_of_length_le (by simp; omega)] at h2
    exact ⟨v', h1, h2⟩
  · unfold View.sub
    rw [if_pos (by omega)]

/-! ### Numbers -/

theorem loads_eq {load : Nat → Access Nat} : ∀ (bytes : List Nat) (address n : Nat), n ≤ bytes.length → (∀ i (h : i < bytes.length), load (address + i) = .ok bytes[i]) →
    loads load address n = .ok (bytes.take n)
  | _, _, 0, _, _ => by simp [loads]
  | [], _, n + 1, h, _ => by simp at h
  | b :: bytes, a, n + 1, hn, h => by
    have h0 := h 0 (by simp)
    simp only [Nat.add_zero, List.getElem_cons_zero] at h0
    have ih := loads_eq bytes (a + 1) n (by simp at hn; omega) (fun i hi => by
      have := h (i + 1) (by simp; omega)
      rw [List.getElem_cons_succ] at this
      rw [← this]
      congr 1
      omega)
    rw [loads, h0, Access.bind, ih]
    rfl

/-- **C96.**  Numbers of one, two, four and eight bytes. -/
theorem C96_number {load : Nat → Access Nat} {v : View} {bytes : List Nat} (h : Holds load v bytes) (n : Nat) :
    v.number load n = if n ≤ bytes.length then .ok (valueOf (bytes.take n)) else .outOfRange := by
  have hs := h.size
  unfold View.number
  by_cases hn : n ≤ bytes.length
  · rw [if_neg (by omega), if_pos hn, loads_eq bytes v.buffer n hn h.load, Access.bind, littleEndian_eq]
  · rw [if_pos (by omega), if_neg hn]

theorem shiftedByte_mod {b i : Nat} (hb : b < 256) (hi : i < 4) : ∃ x, shiftedByte b i = .ok x ∧ x % 2 ^ 32 = b * 2 ^ (8 * i) := by
  unfold shiftedByte
  rw [if_neg (by omega)]
  refine ⟨_, rfl, ?_⟩
  split
  · next h =>
    obtain ⟨rfl, _⟩ := h
    rw [Nat.shiftLeft_eq]
    omega
  · rw [Nat.shiftLeft_eq, Nat.mul_comm i 8]
    have : i = 0 ∨ i = 1 ∨ i = 2 ∨ i = 3 := by omega
    rcases this with rfl | rfl | rfl | rfl <;> omega

theorem gather_mod {load : Nat → Access Nat} {buffer : Nat} : ∀ (l : List Nat) (i val : Nat), i + l.length ≤ 4 → (∀ b ∈ l, b < 256) →
    (∀ j (h : j < l.length), load (buffer + (i + j)) = .ok l[j]) → val % 2 ^ 32 < 2 ^ (8 * i) →
    ∃ x, gather load buffer l.length i val = .ok x ∧ x % 2 ^ 32 = val % 2 ^ 32 + 2 ^ (8 * i) * valueOf l
  | [], i, val, _, _, _, _ => ⟨val, rfl, by simp [valueOf]⟩
  | b :: l, i, val, hi, hb, hl, hv => by
    have hb0 := hb b (by simp)
    have hl0 := hl 0 (by simp)
    rw [Nat.add_zero, List.getElem_cons_zero] at hl0
    rw [List.length_cons] at hi
    obtain ⟨x, x1, x2⟩ := shiftedByte_mod hb0 (i := i) (by omega)
    have hor : (val ||| x) % 2 ^ 32 = val % 2 ^ 32 + b * 2 ^ (8 * i) := by
      rw [Nat.or_mod_two_pow, x2, Nat.or_comm, Nat.mul_comm, ← Nat.two_pow_add_eq_or_of_lt hv]
      omega
    have hp : 2 ^ (8 * (i + 1)) = 256 * 2 ^ (8 * i) := by rw [Nat.mul_add, Nat.pow_add]; omega
    obtain ⟨y, y1, y2⟩ := gather_mod l (i + 1) (val ||| x) (by omega) (fun b h => hb b (by simp [h])) (fun j hj => by
      have := hl (j + 1) (by simp; omega)
      rwa [List.getElem_cons_succ, show i + (j + 1) = i + 1 + j by omega] at this) (by
        rw [hor, hp]
        have : b * 2 ^ (8 * i) ≤ 255 * 2 ^ (8 * i) := Nat.mul_le_mul_right _ (by omega)
        omega)
    refine ⟨y, ?_, ?_⟩
    · rw [List.length_cons, gather, hl0, Access.bind, x1, Access.bind, y1]
    · rw [y2, hor, hp]
      show _ = val % 2 ^ 32 + 2 ^ (8 * i) * (b + 256 * valueOf l)
      ring

/-- **C96.**  Groups of up to 30 bits in the first 32: the bits of the number that the bytes make. -/
theorem C96_bits_partial {load : Nat → Access Nat} {v : View} {bytes : List Nat} (h : Holds load v bytes) {offset length : Nat} (h1 : 0 < offset + length) (h2 : offset + length ≤ 32)
    (h3 : length ≤ 30) : v.bits load offset length =
      if (offset + length + 7) / 8 ≤ bytes.length then .ok (valueOf (bytes.take ((offset + length + 7) / 8)) / 2 ^ offset % 2 ^ length) else .outOfRange := by
  have hs := h.size
  have e : (1 + (offset + length + 2 ^ 64 - 1) % 2 ^ 64 / 8) % 2 ^ 64 = (offset + length + 7) / 8 := by omega
  unfold View.bits
  rw [e]
  generalize hn : (offset + length + 7) / 8 = n
  have hn4 : n ≤ 4 := by omega
  have hn8 : offset + length ≤ 8 * n := by omega
  dsimp only
  by_cases hb : n ≤ bytes.length
  · rw [if_neg (by omega), if_neg (by omega), if_pos hb]
    have hlen : (bytes.take n).length = n := by simp; omega
    obtain ⟨x, x1, x2⟩ := gather_mod (load := load) (buffer := v.buffer) (bytes.take n) 0 0 (by omega) (fun b hb => h.byte b (List.mem_of_mem_take hb)) (fun j hj => by
      rw [Nat.zero_add, List.getElem_take]
      exact h.load j (by omega)) (by decide)
    rw [hlen] at x1
    rw [x1, Access.bind]
    unfold bitMask
    rw [if_neg (by omega), if_neg (by omega), Access.bind, Nat.one_shiftLeft, Nat.and_two_pow_sub_one_eq_mod, Nat.shiftRight_eq_div_pow]
    have x3 : x % 2 ^ 32 = valueOf (bytes.take n) := by simpa using x2
    rw [← x3]
    congr 1
    have hk : (2 : Nat) ^ 32 = 2 ^ offset * 2 ^ length * 2 ^ (32 - offset - length) := by rw [← Nat.pow_add, ← Nat.pow_add]; congr 1; omega
    rw [hk, Nat.mul_assoc, Nat.mod_mul_right_div_self, Nat.mod_mul_right_mod]
  · rw [if_pos (by omega), if_neg hb]

/-- **C96.**  What is missing: for 31 bits or more, or bits beyond the first 32, the language defines nothing. -/
theorem C96_bits_undefined {load : Nat → Access Nat} {v : View} {bytes : List Nat} (h : Holds load v bytes) (hb : 8 ≤ bytes.length) :
    v.bits load 0 31 = .undefined ∧ v.bits load 32 8 = .undefined := by
  have hs := h.size
  constructor
  · obtain ⟨x, x1, -⟩ := gather_mod (load := load) (buffer := v.buffer) (bytes.take 4) 0 0 (by simp) (fun b hb => h.byte b (List.mem_of_mem_take hb)) (fun j hj => by
      rw [Nat.zero_add, List.getElem_take]
      exact h.load j (by simp at hj; omega)) (by decide)
    have hlen : (bytes.take 4).length = 4 := by simp; omega
    rw [hlen] at x1
    unfold View.bits
    dsimp only
    norm_num
    rw [if_neg (by omega), x1]
    rfl
  · have l : ∀ i, i < 8 → ∃ b, load (v.buffer + i) = .ok b ∧ b < 256 := fun i hi => ⟨_, h.load i (by omega), h.byte _ (List.getElem_mem _)⟩
    obtain ⟨b0, l0, k0⟩ := l 0 (by decide)
    rw [Nat.add_zero] at l0
    obtain ⟨b1, l1, k1⟩ := l 1 (by decide)
    obtain ⟨b2, l2, k2⟩ := l 2 (by decide)
    obtain ⟨b3, l3, k3⟩ := l 3 (by decide)
    obtain ⟨b4, l4, k4⟩ := l 4 (by decide)
    unfold View.bits
    dsimp only
    norm_num
    rw [if_neg (by omega)]
    simp [gather, l0, l1, l2, l3, l4, Access.bind, shiftedByte]

/-! ### Files -/

/-- What is always so: mappings are apart and not empty, each has exactly one owner, which knows where it is and how long. -/
structure World.Inv (w : World) : Prop where
  apart : w.regions.Pairwise Region.Apart
  nonempty : ∀ r ∈ w.regions, 0 < r.length
  owned : ∀ r ∈ w.regions, ∃ o x, w.objects o = some x ∧ x.address = some r.base
  owner : ∀ o x a, w.objects o = some x → x.address = some a → ⟨a, x.size, x.file⟩ ∈ w.regions ∧ x.view = ⟨a, x.size⟩
  unique : ∀ o o' x x' a, w.objects o = some x → w.objects o' = some x' → x.address = some a → x'.address = some a → o = o'

theorem pages_pos {n : Nat} (h : 0 < n) : 0 < pages n := by unfold pages; omega

theorem le_pages (n : Nat) : n ≤ pages n := by unfold pages; omega

theorem pages_mono {m n : Nat} (h : m ≤ n) : pages m ≤ pages n := by unfold pages; omega

theorem apart_base {r s : Region} (hr : 0 < r.length) (hs : 0 < s.length) (h : r.Apart s) : r.base ≠ s.base := by
  have := pages_pos hr
  have := pages_pos hs
  unfold Region.Apart at h
  omega

theorem inv_reachable {w : World} (h : w.Reachable) : w.Inv := by
  induction h with
  | start files => exact ⟨.nil, (fun _ h => by simp at h), (fun _ h => by simp at h), (fun _ _ _ h => by simp at h), (fun _ _ _ _ _ h => by simp at h)⟩
  | @step w w' a _ hs ih =>
    cases a with
    | «open» o f place =>
      unfold World.step at hs
      dsimp only at hs
      split at hs
      · cases hs
      · next ho =>
        have ho : w.objects o = none := by simpa using ho
        cases place with
        | none => cases hs
        | some base =>
          dsimp only at hs
          split at hs
          · cases hs
          · next hz =>
            split at hs
            · next hap =>
              cases hs
              have hz' : 0 < (w.files f).length := Nat.pos_of_ne_zero hz
              refine ⟨List.pairwise_cons.2 ⟨hap, ih.apart⟩, ?_, ?_, ?_, ?_⟩
              · intro r hr
                rcases List.mem_cons.1 hr with rfl | hr
                · exact hz'
                · exact ih.nonempty r hr
              · intro r hr
                rcases List.mem_cons.1 hr with rfl | hr
                · exact ⟨o, _, Function.update_self .., rfl⟩
                · obtain ⟨o', x, h1, h2⟩ := ih.owned r hr
                  have : o' ≠ o := fun e => by rw [e, ho] at h1; cases h1
                  exact ⟨o', x, by dsimp only; rw [Function.update_of_ne this]; exact h1, h2⟩
              · intro o' x a h1 h2
                by_cases he : o' = o
                · subst he
                  dsimp only at h1
                  rw [Function.update_self] at h1
                  cases h1
                  cases h2
                  exact ⟨List.mem_cons_self .., rfl⟩
                · dsimp only at h1
                  rw [Function.update_of_ne he] at h1
                  have := ih.owner o' x a h1 h2
                  exact ⟨List.mem_cons_of_mem _ this.1, this.2⟩
              · have fresh : ∀ o' x, w.objects o' = some x → x.address ≠ some base := fun o' x h1 h2 => by
                  have hm := (ih.owner o' x base h1 h2).1
                  exact apart_base (r := ⟨base, (w.files f).length, f⟩) hz' (ih.nonempty _ hm) (hap _ hm) rfl
                intro o1 o2 x1 x2 a h1 h2 h3 h4
                dsimp only at h1 h2
                by_cases e1 : o1 = o <;> by_cases e2 : o2 = o
                · rw [e1, e2]
                · rw [e1, Function.update_self] at h1
                  cases h1
                  cases h3
                  rw [Function.update_of_ne e2] at h2
                  exact absurd h4 (fresh o2 x2 h2)
                · rw [e2, Function.update_self] at h2
                  cases h2
                  cases h4
                  rw [Function.update_of_ne e1] at h1
                  exact absurd h3 (fresh o1 x1 h1)
                · rw [Function.update_of_ne e1] at h1
                  rw [Function.update_of_ne e2] at h2
                  exact ih.unique o1 o2 x1 x2 a h1 h2 h3 h4
            · cases hs
    | move s t =>
      unfold World.step at hs
      dsimp only at hs
      split at hs
      · next x hx ht =>
        cases hs
        have hst : s ≠ t := fun e => by rw [e, ht] at hx; cases hx
        -- the owners are the same with the source replaced by the target
        have look : ∀ o y a, (Function.update (Function.update w.objects t (some x)) s (some { x with address := none })) o = some y → y.address = some a →
            ∃ o', w.objects o' = some y ∧ o ≠ s ∧ (o = t ∧ o' = s ∨ o ≠ t ∧ o' = o) := by
          intro o y a h1 h2
          by_cases e1 : o = s
          · rw [e1, Function.update_self] at h1
            cases h1
            cases h2
          · rw [Function.update_of_ne e1] at h1
            by_cases e2 : o = t
            · rw [e2, Function.update_self] at h1
              cases h1
              exact ⟨s, hx, e1, .inl ⟨e2, rfl⟩⟩
            · rw [Function.update_of_ne e2] at h1
              exact ⟨o, h1, e1, .inr ⟨e2, rfl⟩⟩
        refine ⟨ih.apart, ih.nonempty, ?_, ?_, ?_⟩
        · intro r hr
          obtain ⟨o, y, h1, h2⟩ := ih.owned r hr
          by_cases e : o = s
          · refine ⟨t, x, ?_, ?_⟩
            · dsimp only
              rw [Function.update_of_ne hst.symm, Function.update_self]
            · rw [e, hx] at h1
              cases h1
              exact h2
          · have : o ≠ t := fun e => by rw [e, ht] at h1; cases h1
            exact ⟨o, y, by dsimp only; rw [Function.update_of_ne e, Function.update_of_ne this]; exact h1, h2⟩
        · intro o y a h1 h2
          obtain ⟨o', h3, -⟩ := look o y a h1 h2
          exact ih.owner o' y a h3 h2
        · intro o1 o2 x1 x2 a h1 h2 h3 h4
          obtain ⟨p1, q1, _, r1⟩ := look o1 x1 a h1 h3
          obtain ⟨p2, q2, _, r2⟩ := look o2 x2 a h2 h4
          have := ih.unique p1 p2 x1 x2 a q1 q2 h3 h4
          rcases r1 with ⟨rfl, rfl⟩ | ⟨_, rfl⟩ <;> rcases r2 with ⟨rfl, rfl⟩ | ⟨_, rfl⟩
          · rfl
          · exact absurd this.symm (by assumption)
          · exact absurd this (by assumption)
          · exact this
      · cases hs
    | destroy o =>
      unfold World.step at hs
      dsimp only at hs
      split at hs
      · cases hs
      · next x hx =>
        cases hs
        have look : ∀ o' y, Function.update w.objects o none o' = some y → o' ≠ o ∧ w.objects o' = some y := by
          intro o' y h1
          by_cases e : o' = o
          · rw [e, Function.update_self] at h1
            cases h1
          · rw [Function.update_of_ne e] at h1
            exact ⟨e, h1⟩
        have sub : ∀ r, r ∈ (match x.address with | none => w.regions | some a => w.regions.filter fun r => r.base ≠ a) ↔ r ∈ w.regions ∧ x.address ≠ some r.base := by
          intro r
          cases x.address with
          | none => simp
          | some a =>
            simp only [ne_eq, decide_not, List.mem_filter, Bool.not_eq_eq_eq_not, Bool.not_true, decide_eq_false_iff_not, Option.some.injEq]
            exact ⟨fun h => ⟨h.1, fun e => h.2 e.symm⟩, fun h => ⟨h.1, fun e => h.2 e.symm⟩⟩
        refine ⟨?_, fun r hr => ih.nonempty r ((sub r).1 hr).1, ?_, ?_, ?_⟩
        · dsimp only
          cases x.address with
          | none => exact ih.apart
          | some a => exact ih.apart.filter _
        · intro r hr
          obtain ⟨h1, h2⟩ := (sub r).1 hr
          obtain ⟨o', y, h3, h4⟩ := ih.owned r h1
          have : o' ≠ o := fun e => by
            rw [e, hx] at h3
            cases h3
            exact h2 h4
          exact ⟨o', y, by dsimp only; rw [Function.update_of_ne this]; exact h3, h4⟩
        · intro o' y a h1 h2
          obtain ⟨e, h3⟩ := look o' y h1
          have := ih.owner o' y a h3 h2
          refine ⟨(sub _).2 ⟨this.1, fun h => e (ih.unique o' o y x a h3 hx h2 h)⟩, this.2⟩
        · intro o1 o2 x1 x2 a h1 h2 h3 h4
          exact ih.unique o1 o2 x1 x2 a (look _ _ h1).2 (look _ _ h2).2 h3 h4
    | change f contents =>
      unfold World.step at hs
      cases hs
      exact ⟨ih.apart, ih.nonempty, ih.owned, ih.owner, ih.unique⟩

theorem find_apart : ∀ {l : List Region}, l.Pairwise Region.Apart → ∀ {r : Region}, r ∈ l → ∀ {a : Nat}, r.base ≤ a → a < r.base + pages r.length →
    l.find? (fun r => decide (r.base ≤ a ∧ a < r.base + pages r.length)) = some r
  | [], _, _, h, _, _, _ => by cases h
  | s :: l, hp, r, hm, a, h1, h2 => by
    rw [List.find?_cons]
    rcases List.mem_cons.1 hm with rfl | hm
    · rw [decide_eq_true ⟨h1, h2⟩]
    · have := (List.pairwise_cons.1 hp).1 r hm
      rw [decide_eq_false (by unfold Region.Apart at this; omega)]
      exact find_apart (List.pairwise_cons.1 hp).2 hm h1 h2

/-- **C96.**  At any time, however files were opened, moved and destroyed, and wherever the kernel mapped them: as long as the file is not shorter than when it was opened, what is read through
its object, or through the parts taken of it (`C96_part_partial`), are the bytes of the file. -/
theorem C96_file_partial {w : World} (h : w.Reachable) {o : Nat} {x : Opened} (hx : w.objects o = some x) (ho : x.address.isSome) (hs : x.size ≤ (w.files x.file).length)
    (h64 : x.size < 2 ^ 64) (hb : ∀ b ∈ w.files x.file, b < 256) : Holds w.load x.view ((w.files x.file).take x.size) := by
  obtain ⟨a, ha⟩ := Option.isSome_iff_exists.1 ho
  have hi := inv_reachable h
  obtain ⟨hm, hv⟩ := hi.owner o x a hx ha
  rw [hv]
  refine ⟨by simp; omega, h64, fun b h => hb b (List.mem_of_mem_take h), fun i hl => ?_⟩
  have hl' : i < x.size := by simp at hl; omega
  have := le_pages x.size
  have hp := pages_mono hs
  unfold World.load
  rw [find_apart hi.apart hm (Nat.le_add_right _ _) (by dsimp only; omega)]
  dsimp only
  rw [Nat.add_sub_cancel_left, if_pos (by omega), List.getD_eq_getElem?_getD, List.getElem?_eq_getElem (by omega), List.getElem_take]
  rfl

/-- **C96.**  When every object is gone, so is every mapping; and nothing is unmapped that belongs to another object: the mappings are those of the objects that are left, each once. -/
theorem C96_released {w : World} (h : w.Reachable) :
    ((∀ o, w.objects o = none) → w.regions = []) ∧ (w.regions.map (·.base)).Nodup ∧ ∀ a, a ∈ w.regions.map (·.base) ↔ ∃ o x, w.objects o = some x ∧ x.address = some a := by
  have hi := inv_reachable h
  refine ⟨fun hn => ?_, ?_, fun a => ⟨fun ha => ?_, ?_⟩⟩
  · refine List.eq_nil_iff_forall_not_mem.2 fun r hr => ?_
    obtain ⟨o, x, h1, _⟩ := hi.owned r hr
    rw [hn o] at h1
    cases h1
  · rw [List.Nodup, List.pairwise_map]
    exact hi.apart.imp_of_mem fun hr hs h => apart_base (hi.nonempty _ hr) (hi.nonempty _ hs) h
  · obtain ⟨r, hr, rfl⟩ := List.mem_map.1 ha
    obtain ⟨o, x, h1, h2⟩ := hi.owned r hr
    exact ⟨o, x, h1, h2⟩
  · rintro ⟨o, x, h1, h2⟩
    exact List.mem_map.2 ⟨_, (hi.owner o x a h1 h2).1, rfl⟩

/-- **C96.**  An empty file cannot be opened, wherever the kernel would map it. -/
theorem C96_empty {w : World} {o f : Nat} (ho : w.objects o = none) (hf : w.files f = []) (place : Option Nat) : w.step (.open o f place) = some .unixError := by
  unfold World.step
  dsimp only
  rw [ho, hf]
  cases place <;> rfl

/-! ### Examples and what is missing -/

/-- File 1 has 5000 bytes. -/
def twoPages : Nat → List Nat := fun f => if f = 1 then List.replicate 5000 7 else []

/-- The file opened by object 0. -/
def openedWorld : World := { regions := [⟨8192, 5000, 1⟩], objects := Function.update (fun _ => none) 0 (some ⟨5000, some 8192, ⟨8192, 5000⟩, 1⟩), files := twoPages }

theorem openedWorld_reachable : openedWorld.Reachable := by
  refine .step (a := .open 0 1 (some 8192)) (.start twoPages) ?_
  have : (twoPages 1).length = 5000 := by unfold twoPages; rw [if_pos rfl, List.length_replicate]
  unfold World.step
  dsimp only
  rw [this]
  rfl

/-- The file is moved to object 3, and object 0 is destroyed. -/
def movedWorld : World :=
  { openedWorld with objects := Function.update (Function.update (Function.update openedWorld.objects 3 (some ⟨5000, some 8192, ⟨8192, 5000⟩, 1⟩)) 0
      (some ⟨5000, none, ⟨8192, 5000⟩, 1⟩)) 0 none }

theorem movedWorld_reachable : movedWorld.Reachable := .step (a := .destroy 0) (.step (a := .move 0 3) openedWorld_reachable rfl) rfl

example : Holds movedWorld.load ⟨8192, 5000⟩ (List.replicate 5000 7) := by
  have hf : movedWorld.files 1 = List.replicate 5000 7 := rfl
  have := C96_file_partial movedWorld_reachable (o := 3) (x := ⟨5000, some 8192, ⟨8192, 5000⟩, 1⟩) rfl rfl (by dsimp only; rw [hf, List.length_replicate]) (by decide)
    (by dsimp only; rw [hf]; intro b hb; rw [List.eq_of_mem_replicate hb]; decide)
  dsimp only at this
  rwa [hf, List.take_of_length_le (by rw [List.length_replicate])] at this

/-- **C96.**  What is missing: if somebody shortens the file after it was opened, reading it ends the program with a signal. -/
theorem C96_shortened : ∃ w w' : World, w.Reachable ∧ (∃ x, w.objects 0 = some x ∧ w.load (x.view.buffer + 4096) = .ok 7) ∧ w.step (.change 1 [7]) = some (.ok w') ∧
    ∃ x, w'.objects 0 = some x ∧ x.size = 5000 ∧ w'.load (x.view.buffer + 4096) = .busError := by
  refine ⟨openedWorld, _, openedWorld_reachable, ⟨_, rfl, ?_⟩, rfl, ⟨_, rfl, rfl, ?_⟩⟩
  · have hf : openedWorld.files 1 = List.replicate 5000 7 := rfl
    unfold World.load
    have : openedWorld.regions.find? (fun r => decide (r.base ≤ 8192 + 4096 ∧ 8192 + 4096 < r.base + pages r.length)) = some ⟨8192, 5000, 1⟩ := by decide +kernel
    dsimp only
    rw [this]
    dsimp only
    rw [hf, List.length_replicate, if_pos (by decide)]
    rw [List.getD_eq_getElem?_getD, List.getElem?_replicate_of_lt (by decide)]
    rfl
  · decide +kernel

/-- **C96.**  What is missing: the chunk of an object that was moved from still points to the mapping; it can be read as long as the other object lives, and after that there is no defined behaviour. -/
theorem C96_moved_from : ∃ w w' : World, w.Reachable ∧ w.step (.destroy 3) = some (.ok w') ∧ ∃ x, w.objects 0 = some x ∧ w'.objects 0 = some x ∧ x.size = 5000 ∧
    (∃ b, w.load x.view.buffer = .ok b) ∧ w'.load x.view.buffer = .undefined := by
  refine ⟨_, _, .step (a := .move 0 3) openedWorld_reachable rfl, rfl, _, rfl, rfl, rfl, ⟨7, ?_⟩, by decide +kernel⟩
  have hf : openedWorld.files 1 = List.replicate 5000 7 := rfl
  unfold World.load
  have : openedWorld.regions.find? (fun r => decide (r.base ≤ 8192 ∧ 8192 < r.base + pages r.length)) = some ⟨8192, 5000, 1⟩ := by decide +kernel
  dsimp only
  rw [this]
  dsimp only
  rw [hf, List.length_replicate, if_pos (by decide)]
  rw [List.getD_eq_getElem?_getD, List.getElem?_replicate_of_lt (by decide)]
  rfl

end Alfalfa.Mapped
