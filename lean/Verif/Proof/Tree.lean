import Verif.Proof.Parser
import Verif.Spec.RoundTrip
import Verif.Model.Tree

namespace Alfalfa

theorem Parses.roundTrips {α : Type} {p : Parser α} {bits : Bits} {x : α} (h : Parses p bits x) : RoundTrips p bits x := by
  intro pre post
  obtain ⟨bytes, h1, -, h2⟩ := encode_reads (pre ++ bits ++ post)
  rw [reads_append, reads_append] at h2
  refine ⟨bytes, after (after (BoolDecoder.init bytes) pre) bits, h1, h _ h2.1.2, ?_⟩
  rw [after_append] at h2
  exact reads_getAll h2.2

/-- Following `path` from node `i` of the tree ends at the leaf `v`. -/
def followPath (nodes : List Int) : Nat → List (Bool × Nat) → Option Nat
  | _, [] => none
  | i, (b, k) :: rest =>
    if k = i >>> 1 then
      match nodes[i + b.toNat]? with
      | none => none
      | some next =>
        if 0 < next then followPath nodes next.toNat rest
        else if rest.isEmpty then some (-next).toNat else none
    else none

/-- Attach probabilities to a path. -/
def attach (probs : List Prob) (path : List (Bool × Nat)) : Option Bits :=
  path.mapM (fun x => do let p ← probs[x.2]?; pure (x.1, p))

theorem attach_cons (probs : List Prob) (b : Bool) (k : Nat) (path : List (Bool × Nat)) (bits : Bits) :
    attach probs ((b, k) :: path) = some bits ↔ ∃ p r, probs[k]? = some p ∧ attach probs path = some r ∧ bits = (b, p) :: r := by
  unfold attach
  rw [List.mapM_cons]
  cases h1 : probs[k]? with
  | none => simp
  | some p =>
    cases h2 : List.mapM (fun x : Bool × Nat => (do let p ← probs[x.2]?; pure (x.1, p) : Option (Bool × Prob))) path with
    | none => simp
    | some r => simp [eq_comm]

theorem liftM_bind {α β : Type} {o : Option α} {x : α} (h : o = some x) (f : α → Parser β) :
    ((liftM o : Parser α) >>= f) = f x := by
  subst h; rfl

theorem Parses.readTreeFrom {nodes : List Int} {probs : List Prob} : ∀ (path : List (Bool × Nat)) (fuel i v : Nat) (bits : Bits),
    followPath nodes i path = some v → path.length ≤ fuel → attach probs path = some bits →
    Parses (readTreeFrom nodes probs fuel i) bits v
  | [], fuel, i, v, bits, h, _, _ => by simp [followPath] at h
  | (b, k) :: rest, 0, i, v, bits, _, h, _ => by simp at h
  | (b, k) :: rest, fuel + 1, i, v, bits, h, hl, ha => by
    rw [attach_cons] at ha
    obtain ⟨p, r, h1, h2, rfl⟩ := ha
    unfold followPath at h
    split at h
    case isFalse => cases h
    rename_i hk
    split at h
    · cases h
    rename_i next hnext
    subst hk
    unfold Alfalfa.readTreeFrom
    rw [liftM_bind h1]
    refine Parses.bind (Parses.getBit b p) ?_
    rw [liftM_bind hnext]
    split at h
    · rename_i hpos
      rw [if_pos hpos]
      exact Parses.readTreeFrom rest fuel _ v r h (by simp at hl; omega) h2
    · rename_i hpos
      rw [if_neg hpos]
      split at h
      · rename_i he
        cases h
        rw [List.isEmpty_iff] at he
        subst he
        simp [attach] at h2
        subst h2
        exact Parses.pure _
      · cases h

theorem attach_isSome {probs : List Prob} {path : List (Bool × Nat)} (h : ∀ x ∈ path, x.2 < probs.length) :
    ∃ bits, attach probs path = some bits := by
  induction path with
  | nil => exact ⟨[], rfl⟩
  | cons x path ih =>
    obtain ⟨b, k⟩ := x
    obtain ⟨r, hr⟩ := ih (fun x hx => h x (List.mem_cons_of_mem _ hx))
    have hk : k < probs.length := h (b, k) (List.mem_cons_self)
    exact ⟨_, (attach_cons ..).mpr ⟨probs[k], r, List.getElem?_eq_getElem hk, hr, rfl⟩⟩

/-- The writer's path for symbol `v` is the path the reader follows. -/
def goodSymbol (nodes : List Int) (v : Nat) : Bool :=
  match treePath nodes v with
  | none => false
  | some path => followPath nodes 0 path == some v && decide (path.length ≤ nodes.length) &&
      path.all (fun x => decide (2 * x.2 < nodes.length))

theorem tree_parses {nodes : List Int} {v : Nat} (h : goodSymbol nodes v = true) {probs : List Prob}
    (hp : 2 * probs.length = nodes.length) :
    ∃ bits, writeTree nodes v probs = some bits ∧ Parses (readTree nodes probs) bits v := by
  unfold goodSymbol at h
  split at h
  · cases h
  rename_i path hpath
  simp only [Bool.and_eq_true, beq_iff_eq, decide_eq_true_eq, List.all_eq_true] at h
  obtain ⟨⟨h1, h2⟩, h3⟩ := h
  obtain ⟨bits, hb⟩ := attach_isSome (probs := probs) (path := path) (fun x hx => by have := h3 x hx; omega)
  refine ⟨bits, ?_, Parses.readTreeFrom path _ 0 v bits h1 h2 hb⟩
  unfold writeTree
  rw [hpath]
  exact hb

/-- Every node is a pair of entries, each of which points further down the tree or is one of the symbols. -/
def goodTree (nodes : List Int) (syms : List Nat) : Bool :=
  (List.range nodes.length).all fun i =>
    match nodes[i]? with
    | none => false
    | some n => if 0 < n then decide ((i : Int) < n) && decide (n.toNat % 2 = 0) && decide (n.toNat + 1 < nodes.length)
                else decide ((-n).toNat ∈ syms)

theorem readTreeFrom_produces {nodes : List Int} {syms : List Nat} (h : goodTree nodes syms = true) {probs : List Prob}
    (hp : 2 * probs.length = nodes.length) : ∀ (fuel i : Nat), nodes.length ≤ fuel + i → i % 2 = 0 → i + 1 < nodes.length →
    Produces (readTreeFrom nodes probs fuel i) (· ∈ syms)
  | 0, i, h1, h2, h3 => by omega
  | fuel + 1, i, h1, h2, h3 => by
    unfold readTreeFrom
    have hi : i >>> 1 < probs.length := by rw [Nat.shiftRight_eq_div_pow]; omega
    rw [liftM_bind (List.getElem?_eq_getElem hi)]
    refine Produces.bind (Produces.getBit _) fun b _ => ?_
    have hb : b.toNat ≤ 1 := Bool.toNat_le _
    have hj : i + b.toNat < nodes.length := by omega
    rw [liftM_bind (List.getElem?_eq_getElem hj)]
    unfold goodTree at h
    rw [List.all_eq_true] at h
    have hn := h (i + b.toNat) (List.mem_range.mpr hj)
    rw [List.getElem?_eq_getElem hj] at hn
    dsimp only at hn
    split at hn
    · rename_i hpos
      rw [if_pos hpos]
      simp only [Bool.and_eq_true, decide_eq_true_eq] at hn
      exact readTreeFrom_produces (by unfold goodTree; rw [List.all_eq_true]; exact h) hp fuel _ (by omega) hn.1.2 hn.2
    · rename_i hpos
      rw [if_neg hpos]
      exact Produces.pure (of_decide_eq_true hn)

theorem readTree_produces {nodes : List Int} {syms : List Nat} (h : goodTree nodes syms = true) (h2 : 2 ≤ nodes.length)
    {probs : List Prob} (hp : 2 * probs.length = nodes.length) : Produces (readTree nodes probs) (· ∈ syms) :=
  readTreeFrom_produces h hp _ _ (by omega) (by omega) (by omega)

end Alfalfa
