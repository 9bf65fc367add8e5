import Verif.Proof.BoolDecoder
import Verif.Model.Parser
import Mathlib.Data.Nat.Bitwise

/-! A small logic for parsers: `Parses p bits x` (the parser `p` turns the written bits `bits` into `x` and consumes
exactly them) and `Produces p P` (whatever is read, the result satisfies `P`, and `p` does not throw). -/

namespace Alfalfa

/-- The decoder after reading the bits of `s`. -/
def after (d : BoolDecoder) (s : Bits) : BoolDecoder := stateAfter d (s.map Prod.snd)

@[simp] theorem after_nil (d : BoolDecoder) : after d [] = d := rfl

@[simp] theorem after_cons (d : BoolDecoder) (b : Bool) (p : Prob) (s : Bits) :
    after d ((b, p) :: s) = after (d.get p).2 s := rfl

theorem after_append (d : BoolDecoder) (a b : Bits) : after d (a ++ b) = after (after d a) b := by
  induction a generalizing d with
  | nil => rfl
  | cons x a ih => obtain ⟨x, p⟩ := x; simp only [List.cons_append, after_cons, ih]

theorem reads_append (d : BoolDecoder) (a b : Bits) : Reads d (a ++ b) ↔ Reads d a ∧ Reads (after d a) b := by
  induction a generalizing d with
  | nil => simp [Reads]
  | cons x a ih => obtain ⟨x, p⟩ := x; simp only [List.cons_append, after_cons, Reads, ih, and_assoc]

/-- Reading what was written gives `x`, consuming exactly the bits written. -/
def Parses {α : Type} (p : Parser α) (bits : Bits) (x : α) : Prop :=
  ∀ d, Reads d bits → p d = some (x, after d bits)

theorem Parses.pure {α : Type} (x : α) : Parses (Pure.pure x) [] x := fun _ _ => rfl

theorem Parses.bind {α β : Type} {p : Parser α} {f : α → Parser β} {a b : Bits} {x : α} {y : β}
    (h1 : Parses p a x) (h2 : Parses (f x) b y) : Parses (p >>= f) (a ++ b) y := by
  intro d hd
  rw [reads_append] at hd
  show (p d >>= fun x => f x.1 x.2) = _
  rw [h1 d hd.1, after_append]
  exact h2 _ hd.2

theorem Parses.map {α β : Type} {p : Parser α} {f : α → β} {a : Bits} {x : α}
    (h1 : Parses p a x) : Parses (f <$> p) a (f x) := by
  intro d hd
  show (p d >>= fun x => some (f x.1, x.2)) = _
  rw [h1 d hd]; rfl

theorem Parses.getBit (b : Bool) (p : Prob) : Parses (getBit p) [(b, p)] b := by
  intro d hd
  have := hd.1
  simp only [Alfalfa.getBit, after_cons, after_nil, ← this]

theorem Parses.bit {α : Type} {q : Prob} {f : Bool → Parser α} {b : Bool} {bits : Bits} {x : α} (h : Parses (f b) bits x) :
    Parses (Alfalfa.getBit q >>= f) ((b, q) :: bits) x :=
  Parses.bind (Parses.getBit b q) h

theorem Parses.congr {α : Type} {p : Parser α} {a b : Bits} {x : α} (h : Parses p a x) (e : a = b) : Parses p b x := e ▸ h

theorem Parses.unsigned {w n : Nat} (h : n < 2 ^ w) : Parses (parseUnsigned w) (encUnsigned w n) n := by
  have key : ∀ w n, Parses (parseUnsigned w) (encUnsigned w n) (n % 2 ^ w) := by
    intro w
    induction w with
    | zero => intro n; rw [Nat.pow_zero, Nat.mod_one]; exact Parses.pure 0
    | succ w ih =>
      intro n
      have := Parses.bind (Parses.getBit (decide (n &&& (1 <<< w) ≠ 0)) 128)
        (f := fun b => do let r ← parseUnsigned w; Pure.pure ((b.toNat <<< w) ||| r))
        (Parses.bind (ih n) (Parses.pure _))
      rw [List.append_nil] at this
      have e : (decide (n &&& (1 <<< w) ≠ 0)).toNat <<< w ||| (n % 2 ^ w) = n % 2 ^ (w + 1) := by
        have h1 : decide (n &&& (1 <<< w) ≠ 0) = n.testBit w := by
          rw [Nat.one_shiftLeft, Nat.and_two_pow]
          cases n.testBit w <;> simp
        rw [h1]
        apply Nat.eq_of_testBit_eq
        intro i
        rw [Nat.testBit_or, Nat.testBit_mod_two_pow, Nat.testBit_mod_two_pow, Nat.testBit_shiftLeft]
        rcases Nat.lt_trichotomy i w with hi | hi | hi
        · simp [hi, Nat.lt_succ_of_lt hi, Nat.not_le.mpr hi]
        · subst hi; cases hb : n.testBit i <;> simp
        · have h2 : ¬ i < w := by omega
          have h3 : ¬ i < w + 1 := by omega
          have h4 : (n.testBit w).toNat.testBit (i - w) = false := by
            apply Nat.testBit_lt_two_pow
            have : (n.testBit w).toNat < 2 := Bool.toNat_lt _
            have : 2 ^ 1 ≤ 2 ^ (i - w) := Nat.pow_le_pow_right (by omega) (by omega)
            omega
          simp [h2, h3, h4]
      rw [e] at this
      exact this
  have := key w n
  rwa [Nat.mod_eq_of_lt h] at this

theorem Parses.bindPure {α β : Type} {p : Parser α} {f : α → β} {a : Bits} {x : α} {y : β}
    (h1 : Parses p a x) (h2 : f x = y) : Parses (p >>= fun x => Pure.pure (f x)) a y := by
  subst h2
  have := Parses.bind h1 (f := fun x => Pure.pure (f x)) (Parses.pure (f x))
  rwa [List.append_nil] at this

theorem Parses.signed {w : Nat} {n : Int} (h : n.natAbs < 2 ^ w) : Parses (parseSigned w) (encSigned w n) n := by
  unfold parseSigned encSigned
  refine Parses.bind (Parses.unsigned h) (Parses.bindPure (Parses.getBit _ _) ?_)
  by_cases hn : n < 0
  · simp only [hn, decide_true, if_true]; omega
  · simp only [hn, decide_false]; simp; omega

theorem Parses.optional {α : Type} {flag : Bool} {p : Parser α} {f : α → Bits} {x : Option α} (h1 : x.isSome = flag)
    (h2 : ∀ y, x = some y → Parses p (f y) y) : Parses (parseOptional flag p) (encOptional f x) x := by
  subst h1
  cases x with
  | none => exact Parses.pure _
  | some y => exact Parses.map (h2 y rfl)

theorem Parses.flagged {α : Type} {prob : Prob} {p : Parser α} {f : α → Bits} {x : Option α}
    (h2 : ∀ y, x = some y → Parses p (f y) y) : Parses (parseFlagged prob p) (encFlagged prob f x) x :=
  Parses.bind (Parses.getBit x.isSome prob) (Parses.optional rfl h2)

theorem Parses.fin {α : Type} : ∀ {n : Nat} {p : Fin n → Parser α} {f : Fin n → Bits} {x : Fin n → α}
    (_ : ∀ i, Parses (p i) (f i) (x i)), Parses (parseFin n p) (encFin n f) x
  | 0, p, f, x, h => by
    have : x = Fin.elim0 := funext fun i => i.elim0
    subst this
    exact Parses.pure _
  | n + 1, p, f, x, h => by
    unfold parseFin encFin
    refine Parses.bind (h 0) (Parses.bindPure (Parses.fin (fun i => h i.succ)) ?_)
    funext i; refine Fin.cases ?_ (fun i => ?_) i <;> rfl

/-- Whatever the decoder reads, `p` succeeds and the result satisfies `P`. -/
def Produces {α : Type} (p : Parser α) (P : α → Prop) : Prop := ∀ d, ∃ x d', p d = some (x, d') ∧ P x

/-- Whatever the decoder reads, if `p` succeeds then the result satisfies `P`. -/
def Yields {α : Type} (p : Parser α) (P : α → Prop) : Prop := ∀ d x d', p d = some (x, d') → P x

theorem Produces.yields {α : Type} {p : Parser α} {P : α → Prop} (h : Produces p P) : Yields p P := by
  intro d x d' hx
  obtain ⟨y, e, h1, h2⟩ := h d
  rw [h1] at hx
  cases hx
  exact h2

theorem Produces.pure {α : Type} {P : α → Prop} {x : α} (h : P x) : Produces (Pure.pure x) P := fun d => ⟨x, d, rfl, h⟩

theorem Produces.bind {α β : Type} {p : Parser α} {f : α → Parser β} {P : α → Prop} {Q : β → Prop}
    (h1 : Produces p P) (h2 : ∀ x, P x → Produces (f x) Q) : Produces (p >>= f) Q := by
  intro d
  obtain ⟨x, d1, e1, hx⟩ := h1 d
  obtain ⟨y, d2, e2, hy⟩ := h2 x hx d1
  refine ⟨y, d2, ?_, hy⟩
  show (p d >>= fun x => f x.1 x.2) = _
  rw [e1]; exact e2

theorem Produces.map {α β : Type} {p : Parser α} {f : α → β} {P : α → Prop} {Q : β → Prop}
    (h1 : Produces p P) (h2 : ∀ x, P x → Q (f x)) : Produces (f <$> p) Q := by
  intro d
  obtain ⟨x, d1, e1, hx⟩ := h1 d
  refine ⟨f x, d1, ?_, h2 x hx⟩
  show (p d >>= fun x => some (f x.1, x.2)) = _
  rw [e1]; rfl

theorem Produces.mono {α : Type} {p : Parser α} {P Q : α → Prop} (h : Produces p P) (hpq : ∀ x, P x → Q x) :
    Produces p Q := by
  intro d
  obtain ⟨x, d', e, hx⟩ := h d
  exact ⟨x, d', e, hpq x hx⟩

theorem Produces.getBit (p : Prob) : Produces (getBit p) (fun _ => True) := fun _ => ⟨_, _, rfl, trivial⟩

theorem Produces.unsigned : ∀ w, Produces (parseUnsigned w) (fun n => n < 2 ^ w)
  | 0 => Produces.pure (by decide)
  | w + 1 => by
    refine Produces.bind (Produces.getBit _) fun b _ => Produces.bind (Produces.unsigned w) fun r hr => Produces.pure ?_
    apply Nat.or_lt_two_pow
    · rw [Nat.shiftLeft_eq]
      have : b.toNat ≤ 1 := Bool.toNat_le _
      have h2 : 0 < 2 ^ w := Nat.pow_pos (by omega)
      calc b.toNat * 2 ^ w ≤ 1 * 2 ^ w := Nat.mul_le_mul_right _ this
        _ < 2 ^ (w + 1) := by rw [Nat.pow_succ]; omega
    · rw [Nat.pow_succ]; omega

theorem Produces.signed (w : Nat) : Produces (parseSigned w) (fun n => n.natAbs < 2 ^ w) := by
  refine Produces.bind (Produces.unsigned w) fun u hu => Produces.bind (Produces.getBit _) fun s _ => Produces.pure ?_
  cases s
  · simpa using hu
  · simpa using hu

theorem Produces.optional {α : Type} {flag : Bool} {p : Parser α} {P : α → Prop} (h : Produces p P) :
    Produces (parseOptional flag p) (fun x => x.isSome = flag ∧ ∀ y, x = some y → P y) := by
  unfold parseOptional
  cases flag
  · exact Produces.pure ⟨rfl, by intro y h; cases h⟩
  · exact Produces.map h fun x hx => ⟨rfl, by intro y h; cases h; exact hx⟩

theorem Produces.flagged {α : Type} {prob : Prob} {p : Parser α} {P : α → Prop} (h : Produces p P) :
    Produces (parseFlagged prob p) (fun x => ∀ y, x = some y → P y) :=
  Produces.bind (Produces.getBit _) fun _ _ => Produces.mono (Produces.optional h) fun _ hx => hx.2

theorem Produces.fin {α : Type} : ∀ {n : Nat} {p : Fin n → Parser α} {P : Fin n → α → Prop}
    (_ : ∀ i, Produces (p i) (P i)), Produces (parseFin n p) (fun x => ∀ i, P i (x i))
  | 0, p, P, h => Produces.pure (fun i => i.elim0)
  | n + 1, p, P, h => by
    refine Produces.bind (h 0) fun x hx => Produces.bind (Produces.fin (fun i => h i.succ)) fun g hg => Produces.pure ?_
    intro i
    refine Fin.cases ?_ (fun i => ?_) i
    · exact hx
    · exact hg i

end Alfalfa
