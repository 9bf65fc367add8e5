import Verif.Model.Pacer
import Mathlib.Tactic.Linarith

/-! The pacer (C32). -/

namespace Alfalfa

/-- A step of a program that uses the pacer: hand it a packet at some time, with some delay, or take the head of the queue. -/
inductive PacerStep
  | push (now : Int) (payload : List UInt8) (delay : Int)
  | pop

/-- A run: the queue, and the payloads that left. -/
inductive PacerRun : List PacerStep → Pacer → List (List UInt8) → Prop
  | start : PacerRun [] [] []
  | push {steps p out} (h : PacerRun steps p out) (now : Int) (payload : List UInt8) (delay : Int) :
      PacerRun (steps ++ [.push now payload delay]) (p.push now payload delay) out
  | pop {steps p out} (h : PacerRun steps p out) {what p'} (hp : p.pop = some (what, p')) : PacerRun (steps ++ [.pop]) p' (out ++ [what])

/-- The payloads handed to the pacer, in order. -/
def pushedPayloads : List PacerStep → List (List UInt8)
  | [] => []
  | .push _ payload _ :: rest => payload :: pushedPayloads rest
  | .pop :: rest => pushedPayloads rest

theorem pushedPayloads_append (a b : List PacerStep) : pushedPayloads (a ++ b) = pushedPayloads a ++ pushedPayloads b := by
  induction a with
  | nil => rfl
  | cons s a ih => cases s <;> simp [pushedPayloads, ih]

theorem push_eq (p : Pacer) (now : Int) (payload : List UInt8) (delay : Int) : ∃ w, p.push now payload delay = p ++ [⟨w, payload⟩] ∧
    (p = [] → w = now) ∧ ∀ a, p.getLast? = some a → w = a.when_ + delay * 1000 := by
  unfold Pacer.push
  cases h : p.getLast? with
  | none => exact ⟨now, rfl, (fun _ => rfl), (fun a ha => nomatch ha)⟩
  | some back =>
    refine ⟨back.when_ + delay * 1000, rfl, ?_, ?_⟩
    · intro he; rw [he] at h; exact nomatch h
    · intro a ha; rw [Option.some.inj ha]

/-- **C32, order.** What left the pacer followed by what is still queued is what entered it, in order: nothing is lost, duplicated or reordered. -/
theorem C32_pacer_order {steps : List PacerStep} {p : Pacer} {out : List (List UInt8)} (h : PacerRun steps p out) :
    out ++ p.map (·.what) = pushedPayloads steps := by
  induction h with
  | start => rfl
  | push h now payload delay ih =>
    obtain ⟨w, e, _⟩ := push_eq _ now payload delay
    rw [e, List.map_append, ← List.append_assoc, ih, pushedPayloads_append]
    rfl
  | @pop steps p out h what p' hp ih =>
    rw [pushedPayloads_append, ← ih]
    cases p with
    | nil => exact nomatch hp
    | cons a p =>
      have := Prod.mk.inj (Option.some.inj hp)
      rw [← this.1, ← this.2]
      simp [pushedPayloads]

/-- **C32, spacing.** If no requested delay is below `d` microseconds then neighbours in the queue are due at least `d` microseconds apart. -/
theorem C32_pacer_spacing {steps : List PacerStep} {p : Pacer} {out : List (List UInt8)} (h : PacerRun steps p out) (d : Int)
    (hd : ∀ now payload delay, PacerStep.push now payload delay ∈ steps → d ≤ delay) :
    ∀ k a b, p[k]? = some a → p[k + 1]? = some b → a.when_ + d * 1000 ≤ b.when_ := by
  induction h with
  | start => intro k a b ha; exact nomatch ha
  | @push steps p out h now payload delay ih =>
    have ih := ih (fun n pl dl hm => hd n pl dl (List.mem_append_left _ hm))
    have hdelay := hd now payload delay (List.mem_append_right _ (List.mem_singleton.mpr rfl))
    obtain ⟨w, e, _, hw⟩ := push_eq p now payload delay
    rw [e]
    intro k a b ha hb
    by_cases hk : k + 1 < p.length
    · rw [List.getElem?_append_left (by omega)] at ha hb
      exact ih k a b ha hb
    · have hkb : k + 1 < (p ++ [(⟨w, payload⟩ : ScheduledPacket)]).length := (List.getElem?_eq_some_iff.mp hb).1
      rw [List.length_append, List.length_singleton] at hkb
      have hk' : k + 1 = p.length := by omega
      rw [hk', List.getElem?_append_right (Nat.le_refl _), Nat.sub_self] at hb
      rw [List.getElem?_append_left (by omega)] at ha
      have hlast : p.getLast? = some a := by rw [List.getLast?_eq_getElem?, ← hk', Nat.add_sub_cancel]; exact ha
      have hbw : b.when_ = w := by
        have : (⟨w, payload⟩ : ScheduledPacket) = b := Option.some.inj hb
        rw [← this]
      rw [hbw, hw a hlast]
      linarith
  | @pop steps p out h what p' hp ih =>
    have ih := ih (fun n pl dl hm => hd n pl dl (List.mem_append_left _ hm))
    cases p with
    | nil => exact nomatch hp
    | cons x p =>
      have := Prod.mk.inj (Option.some.inj hp)
      rw [← this.2]
      intro k a b ha hb
      exact ih (k + 1) a b (by rwa [List.getElem?_cons_succ]) (by rwa [List.getElem?_cons_succ])

/-- **C32, due times.** With delays that are not negative, due times do not decrease along the queue. -/
theorem C32_due_times_sorted {steps : List PacerStep} {p : Pacer} {out : List (List UInt8)} (h : PacerRun steps p out)
    (hd : ∀ now payload delay, PacerStep.push now payload delay ∈ steps → 0 ≤ delay) : p.Pairwise fun a b => a.when_ ≤ b.when_ := by
  have hs := C32_pacer_spacing h 0 hd
  clear h hd
  induction p with
  | nil => exact List.Pairwise.nil
  | cons a p ih =>
    have ih := ih (fun k x y hx hy => hs (k + 1) x y (by rwa [List.getElem?_cons_succ]) (by rwa [List.getElem?_cons_succ]))
    refine List.pairwise_cons.mpr ⟨?_, ih⟩
    cases p with
    | nil => intro b hb; exact absurd hb List.not_mem_nil
    | cons c p =>
      have hac := hs 0 a c rfl rfl
      intro b hb
      obtain rfl | hb := List.mem_cons.mp hb
      · linarith
      · have := (List.pairwise_cons.mp ih).1 b hb
        linarith

theorem toInt32_of_small {v : Int} (h1 : -2 ^ 31 ≤ v) (h2 : v < 2 ^ 31) : toInt32 v = v := by
  unfold toInt32
  rw [Int.emod_eq_of_lt (by omega) (by omega)]
  omega

/-- **C32, waiting (partial).** For times within 2³¹ milliseconds, the wait reported is never negative, it never exceeds the time to the due
time of the head, falls short of it by less than a millisecond, and is zero exactly when the head is due *within less than a millisecond*.  Missing:
"exactly when the head is due", which is false. -/
theorem C32_wait_partial (a : ScheduledPacket) (p : Pacer) (now : Int) (h1 : -2 ^ 31 * 1000000 ≤ a.when_ - now) (h2 : a.when_ - now < 2 ^ 31 * 1000000) :
    0 ≤ Pacer.msUntilDue (a :: p) now ∧ (Pacer.msUntilDue (a :: p) now = 0 ↔ a.when_ - now < 1000000) ∧
      (now ≤ a.when_ → Pacer.msUntilDue (a :: p) now * 1000000 ≤ a.when_ - now ∧ a.when_ - now < (Pacer.msUntilDue (a :: p) now + 1) * 1000000) := by
  obtain ⟨t, ht⟩ : ∃ t, t = a.when_ - now := ⟨_, rfl⟩
  have hle : now ≤ a.when_ ↔ 0 ≤ t := by omega
  have hcases : (0 ≤ t ∧ t.tdiv 1000000 = t / 1000000) ∨ (t < 0 ∧ t.tdiv 1000000 = -((-t) / 1000000)) := by
    rcases Int.lt_or_le t 0 with h | h
    · refine Or.inr ⟨h, ?_⟩
      have := Int.neg_tdiv (-t) 1000000
      rw [Int.neg_neg] at this
      rw [this, Int.tdiv_eq_ediv_of_nonneg (by omega)]
    · exact Or.inl ⟨h, Int.tdiv_eq_ediv_of_nonneg h⟩
  have hsmall : toInt32 (t.tdiv 1000000) = t.tdiv 1000000 := toInt32_of_small (by omega) (by omega)
  have heq : Pacer.msUntilDue (a :: p) now = if t.tdiv 1000000 < 0 then 0 else t.tdiv 1000000 := by
    unfold Pacer.msUntilDue
    dsimp only
    rw [← ht, hsmall]
  rw [heq, hle, ← ht]
  by_cases hneg : t.tdiv 1000000 < 0
  · rw [if_pos hneg]
    omega
  · rw [if_neg hneg]
    omega

/-- The head is sent before it is due, by up to a millisecond. -/
theorem C32_head_sent_early : ∃ (p : Pacer) (now : Int), p.msUntilDue now = 0 ∧ ∀ a ∈ p, now + 900000 ≤ a.when_ :=
  ⟨[⟨900000, [1]⟩], 0, by decide, by decide⟩

/-- What the sender's loop sends at a time is the part of the queue, from its head, that is due within less than a millisecond; the rest stays, and
its head is not due.  However many rounds it is given, the queue is never popped when it is empty. -/
theorem C32_send_due (now : Int) : ∀ (p : Pacer) (rounds : Nat), p.length ≤ rounds →
    (∀ a ∈ p, -2 ^ 31 * 1000000 ≤ a.when_ - now ∧ a.when_ - now < 2 ^ 31 * 1000000) →
    p.sendDue now rounds = some (((p.takeWhile fun a => decide (a.when_ - now < 1000000)).map (·.what)), p.dropWhile fun a => decide (a.when_ - now < 1000000)) := by
  intro p
  induction p with
  | nil =>
    intro rounds _ _
    cases rounds with
    | zero => rfl
    | succ n => rfl
  | cons a p ih =>
    intro rounds hr h
    have ha := h a (List.mem_cons_self ..)
    have hw := (C32_wait_partial a p now ha.1 ha.2).2.1
    cases rounds with
    | zero => exact absurd hr (by simp)
    | succ rounds =>
      rw [Pacer.sendDue, List.takeWhile_cons, List.dropWhile_cons]
      by_cases hd : a.when_ - now < 1000000
      · rw [if_pos (hw.mpr hd), decide_eq_true hd, if_pos rfl, if_pos rfl]
        show (Pacer.sendDue now rounds p >>= _) = _
        rw [ih rounds (by simpa using hr) (fun b hb => h b (List.mem_cons_of_mem _ hb))]
        rfl
      · rw [if_neg (fun h => hd (hw.mp h)), decide_eq_false hd, if_neg (by simp), if_neg (by simp)]
        rfl

/-! ### Examples -/

/-- Three packets enter, one leaves, a fourth enters. -/
theorem examplePacerRun : PacerRun [.push 5000 [1] 500, .push 5100 [2] 500, .push 5200 [3] 2000, .pop, .push 9000 [4] 700]
    [⟨505000, [2]⟩, ⟨2505000, [3]⟩, ⟨3205000, [4]⟩] [[1]] := by
  have h := PacerRun.start
  have h := h.push 5000 [1] 500
  have h := h.push 5100 [2] 500
  have h := h.push 5200 [3] 2000
  have h := h.pop (what := [1]) rfl
  exact h.push 9000 [4] 700

example : [[1]] ++ [[2], [3], [4]] = pushedPayloads [.push 5000 [1] 500, .push 5100 [2] 500, .push 5200 [3] 2000, .pop, .push 9000 [4] 700] :=
  C32_pacer_order examplePacerRun

example : List.Pairwise (fun a b => a.when_ ≤ b.when_) ([⟨505000, [2]⟩, ⟨2505000, [3]⟩, ⟨3205000, [4]⟩] : Pacer) :=
  C32_due_times_sorted examplePacerRun (by intro n p d h; simp at h; omega)

example : Pacer.sendDue 1600000 5 [⟨505000, [2]⟩, ⟨2505000, [3]⟩, ⟨3205000, [4]⟩] = some ([[2], [3]], [⟨3205000, [4]⟩]) :=
  (C32_send_due 1600000 [⟨505000, [2]⟩, ⟨2505000, [3]⟩, ⟨3205000, [4]⟩] 5 (by decide) (by decide)).trans (by decide)

end Alfalfa
