import Verif.Model.Choices
import Verif.Spec.Trellis
import Verif.Proof.Tokens
import Mathlib.Tactic.Linarith
import Mathlib.Tactic.Ring

/-! The trellis. -/

namespace Alfalfa

theorem candidate_steps {q : Int} {s : Fin 2} {v : Int} (h : candidate q s = some v) : OneStep q v := by
  unfold candidate at h
  unfold OneStep
  have hs := s.isLt
  by_cases h1 : q < 0
  · rw [if_pos h1] at h
    cases h
    omega
  · rw [if_neg h1] at h
    by_cases h2 : q > 0 ∨ s = 0
    · rw [if_pos h2] at h
      cases h
      rcases h2 with h2 | rfl
      · omega
      · left
        show max 0 (q - 0) = q
        omega
    · rw [if_neg h2] at h
      exact nomatch h

/-- The quantized value at an index. -/
def plainAt (c : Fin 16 → Int) (dc ac : Nat) (idx : Fin 16) : Int := toInt16 ((c (zigzag idx)).tdiv (if idx = 0 then dc else ac : Nat))

/-- What is known of a trellis for a list of indices. -/
def TrellisFor (c : Fin 16 → Int) (dc ac : Nat) : List (Fin 16) → List (Fin 2 → TrellisNode) → Prop
  | [], t => t = [fun _ => sentinel]
  | idx :: rest, [] => False
  | idx :: rest, n :: t => TrellisFor c dc ac rest t ∧ ∀ i, ((n i).token = eobToken → ∀ j ∈ idx :: rest, OneStep (plainAt c dc ac j) 0) ∧
      ((n i).token ≠ eobToken → OneStep (plainAt c dc ac idx) (n i).coeff ∧ (n i).next < 2)

theorem tokenForCoeff_ne (c : Int) : tokenForCoeff c ≠ eobToken := by
  unfold tokenForCoeff
  dsimp only
  repeat' split
  all_goals decide

theorem trellisNode_shape {costs : TrellisCosts} {idx : Fin 16} {original : Int} {factor : Nat} {next : Fin 2 → TrellisNode} {coeff : Int}
    {n : TrellisNode} (h : trellisNode costs idx original factor next coeff = some n) :
    (n.token = eobToken → coeff = 0 ∧ ∃ b, (next b).token = eobToken) ∧ (n.token ≠ eobToken → n.coeff = coeff ∧ n.next < 2) := by
  unfold trellisNode at h
  dsimp only at h
  generalize chooseNext _ _ = b at h
  cases b with
  | none => exact nomatch h
  | some b =>
    rw [Option.bind_eq_bind, Option.bind_some] at h
    split at h
    · split at h
      · cases h
        exact ⟨fun h => absurd h (tokenForCoeff_ne _), fun _ => ⟨rfl, b.isLt⟩⟩
      · exact nomatch h
    · rename_i hn
      cases h
      rw [not_or, not_not, not_not] at hn
      exact ⟨fun _ => ⟨hn.1, b, hn.2⟩, fun h => absurd rfl h⟩

theorem trellisNodes_shape {costs : TrellisCosts} {idx : Fin 16} {original : Int} {factor : Nat} {next n : Fin 2 → TrellisNode}
    (h : trellisNodes costs idx original factor next = some n) (i : Fin 2) :
    ((n i).token = eobToken → OneStep (toInt16 (original.tdiv factor)) 0 ∧ ∃ b, (next b).token = eobToken) ∧
    ((n i).token ≠ eobToken → OneStep (toInt16 (original.tdiv factor)) (n i).coeff ∧ (n i).next < 2) := by
  unfold trellisNodes at h
  by_cases hf : factor = 0
  · rw [if_pos hf] at h; exact nomatch h
  rw [if_neg hf] at h
  dsimp only at h
  generalize toInt16 (original.tdiv factor) = q at h ⊢
  have key : ∀ {s v m}, candidate q s = some v → trellisNode costs idx original factor next v = some m →
      (m.token = eobToken → OneStep q 0 ∧ ∃ b, (next b).token = eobToken) ∧ (m.token ≠ eobToken → OneStep q m.coeff ∧ m.next < 2) := by
    intro s v m hv hm
    obtain ⟨k1, k2⟩ := trellisNode_shape hm
    refine ⟨fun h => ?_, fun h => ?_⟩
    · obtain ⟨e, hb⟩ := k1 h
      exact ⟨e ▸ candidate_steps hv, hb⟩
    · obtain ⟨e, hb⟩ := k2 h
      exact ⟨e ▸ candidate_steps hv, hb⟩
  cases h0 : candidate q 0 with
  | none => rw [h0] at h; exact nomatch h
  | some v0 =>
    rw [h0] at h
    dsimp only at h
    cases hn0 : trellisNode costs idx original factor next v0 with
    | none => rw [hn0] at h; exact nomatch h
    | some n0 =>
      rw [hn0, Option.bind_eq_bind, Option.bind_some] at h
      cases h1 : candidate q 1 with
      | none =>
        rw [h1] at h
        cases h
        have : i = 0 ∨ i = 1 := by omega
        rcases this with rfl | rfl <;> exact key h0 hn0
      | some v1 =>
        rw [h1] at h
        dsimp only at h
        cases hn1 : trellisNode costs idx original factor next v1 with
        | none => rw [hn1] at h; exact nomatch h
        | some n1 =>
          rw [hn1] at h
          cases h
          have : i = 0 ∨ i = 1 := by omega
          rcases this with rfl | rfl
          · exact key h0 hn0
          · exact key h1 hn1

theorem buildTrellis_built {costs : TrellisCosts} {c : Fin 16 → Int} {dc ac : Nat} {is : List (Fin 16)} {t : List (Fin 2 → TrellisNode)}
    (h : buildTrellis costs c dc ac is = some t) : TrellisFor c dc ac is t := by
  induction is generalizing t with
  | nil => cases h; exact rfl
  | cons idx rest ih =>
    unfold buildTrellis at h
    cases hr : buildTrellis costs c dc ac rest with
    | none => rw [hr] at h; exact nomatch h
    | some t' =>
      rw [hr, Option.bind_eq_bind, Option.bind_some] at h
      cases t' with
      | nil => exact nomatch h
      | cons next t' =>
        dsimp only at h
        cases hn : trellisNodes costs idx (c (zigzag idx)) (if idx = 0 then dc else ac) next with
        | none => rw [hn] at h; exact nomatch h
        | some n =>
          rw [hn] at h
          cases h
          refine ⟨ih hr, fun i => ⟨fun he => ?_, (trellisNodes_shape hn i).2⟩⟩
          obtain ⟨h0, b, hb⟩ := (trellisNodes_shape hn i).1 he
          intro j hj
          rcases List.mem_cons.1 hj with rfl | hj
          · exact h0
          · have ht := ih hr
            cases rest with
            | nil => exact nomatch hj
            | cons a rest => exact (ht.2 b).1 hb j hj

theorem zeroFrom_at (c : Fin 16 → Int) (l : List (Fin 16)) (i : Fin 16) : zeroFrom c l (zigzag i) = if i ∈ l then 0 else c (zigzag i) := by
  induction l generalizing c with
  | nil => rfl
  | cons a l ih =>
    show zeroFrom (Function.update c (zigzag a) 0) l (zigzag i) = _
    rw [ih]
    by_cases h : i ∈ l
    · rw [if_pos h, if_pos (List.mem_cons_of_mem _ h)]
    · rw [if_neg h]
      by_cases e : i = a
      · rw [e, Function.update_self, if_pos List.mem_cons_self]
      · rw [Function.update_of_ne (fun h => e (zigzag_inj h)), if_neg (fun h' => (List.mem_cons.mp h').elim e h)]

theorem walkTrellis_shape {c0 : Fin 16 → Int} {dc ac : Nat} {is : List (Fin 16)} {t : List (Fin 2 → TrellisNode)} (hb : TrellisFor c0 dc ac is t)
    {choice : Nat} (hc : choice < 2) (rest : List (Fin 16)) (hd : (is ++ rest).Nodup) (c : Fin 16 → Int) :
    ∃ c', walkTrellis t choice (is ++ rest) c = some c' ∧ (∀ i ∈ is, OneStep (plainAt c0 dc ac i) (c' (zigzag i))) ∧
      (∀ i ∈ rest, c' (zigzag i) = 0) ∧ ∀ i, i ∉ is ++ rest → c' (zigzag i) = c (zigzag i) := by
  induction is generalizing t choice c with
  | nil =>
    have e : t = [fun _ => sentinel] := hb
    cases rest with
    | nil => exact ⟨c, by cases t <;> rfl, fun _ h => (nomatch h), fun _ h => (nomatch h), fun _ _ => rfl⟩
    | cons a rest =>
      refine ⟨zeroFrom c (a :: rest), ?_, fun _ h => (nomatch h), fun i hi => ?_, fun i hi => ?_⟩
      · rw [e]
        show (if h : choice < 2 then _ else _) = _
        rw [dif_pos hc]
        exact if_pos rfl
      · rw [zeroFrom_at, if_pos hi]
      · rw [zeroFrom_at]; exact if_neg hi
  | cons idx is ih =>
    cases t with
    | nil => exact hb.elim
    | cons n t =>
      obtain ⟨hb, hn⟩ := hb
      have hd' := List.nodup_cons.mp hd
      show ∃ c', (if h : choice < 2 then _ else _) = _ ∧ _
      rw [dif_pos hc]
      by_cases he : (n ⟨choice, hc⟩).token = eobToken
      · rw [if_pos he]
        refine ⟨_, rfl, fun i hi => ?_, fun i hi => ?_, fun i hi => ?_⟩
        · rw [zeroFrom_at, if_pos (show i ∈ idx :: is.append rest from List.mem_append_left rest hi)]
          exact (hn ⟨choice, hc⟩).1 he i hi
        · rw [zeroFrom_at, if_pos (show i ∈ idx :: is.append rest from List.mem_append_right (idx :: is) hi)]
        · rw [zeroFrom_at]; exact if_neg hi
      · rw [if_neg he]
        obtain ⟨hs, hx⟩ := (hn ⟨choice, hc⟩).2 he
        obtain ⟨c', h1, h3, h4, h5⟩ := ih hb hx hd'.2 (Function.update c (zigzag idx) (n ⟨choice, hc⟩).coeff)
        refine ⟨c', h1, fun i hi => ?_, h4, fun i hi => ?_⟩
        · rcases List.mem_cons.mp hi with rfl | hi
          · rw [h5 i hd'.1, Function.update_self]; exact hs
          · exact h3 i hi
        · have hne : i ≠ idx := fun e => hi (e ▸ List.mem_cons_self)
          rw [h5 i fun h => hi (List.mem_cons_of_mem _ h), Function.update_of_ne fun h => hne (zigzag_inj h)]

/-- Past the last coefficient the plain quantizer gives zero. -/
theorem plainAt_zero {c : Fin 16 → Int} {i : Fin 16} (h : c (zigzag i) = 0) (dc ac : Nat) : plainAt c dc ac i = 0 := by
  unfold plainAt
  rw [h, Int.zero_tdiv]
  rfl

theorem filter_split (first : Fin 2) (n : Nat) :
    indicesFrom first.val = (indicesFrom first.val).filter (fun i => decide (i.val < n)) ++
      (indicesFrom first.val).filter (fun i => !decide (i.val < n)) := by
  have key : ∀ (f : Fin 2) (m : Fin 17), indicesFrom f.val = (indicesFrom f.val).filter (fun i => decide (i.val < m.val)) ++
      (indicesFrom f.val).filter (fun i => !decide (i.val < m.val)) := by decide +kernel
  have := key first ⟨min n 16, by omega⟩
  have e : (fun i : Fin 16 => decide (i.val < min n 16)) = fun i => decide (i.val < n) := by
    funext i
    have := i.isLt
    rw [decide_eq_decide]
    omega
  dsimp only at this
  have e' : (fun i : Fin 16 => !decide (i.val < min n 16)) = fun i => !decide (i.val < n) := by
    funext i; exact congrArg (! ·) (congrFun e i)
  rw [e, e'] at this
  exact this

theorem indicesFrom_nodup (first : Fin 2) : (indicesFrom first.val).Nodup := by revert first; decide +kernel

theorem chooseNext_lt {a b : Nat} (h : a < 2 ^ 32 - 1) : ∃ i, chooseNext a b = some i := by
  unfold chooseNext
  rw [if_pos h]
  split <;> exact ⟨_, rfl⟩

/-- The square of the difference between a coefficient and a candidate is small. -/
theorem diff_small {o : Int} {f : Nat} (h1 : 1 ≤ f) (h2 : f ≤ 442) (ho : -32768 ≤ o ∧ o ≤ 32767) {v : Int} (hv : OneStep (toInt16 (o.tdiv f)) v) :
    (toInt16 (o - v * f) * toInt16 (o - v * f)).toNat ≤ 781456 := by
  have hq : toInt16 (o.tdiv f) = o.tdiv f := by
    have : (o.tdiv f).natAbs ≤ o.natAbs := Int.natAbs_tdiv_le_natAbs _ _
    have hp : 0 ≤ o → 0 ≤ o.tdiv f := fun h => Int.tdiv_nonneg h (by omega)
    have hn : o ≤ 0 → o.tdiv f ≤ 0 := fun h => by
      have := Int.tdiv_nonneg (a := -o) (b := f) (by omega) (by omega)
      rw [Int.neg_tdiv] at this
      omega
    unfold toInt16
    rw [Int.bmod_def]
    generalize o.tdiv f = q at *
    omega
  rw [hq] at hv
  have hm := Int.mul_tdiv_add_tmod o f
  have ht : (o.tmod f).natAbs < f := by
    rw [Int.natAbs_tmod]
    exact Nat.mod_lt _ h1
  have hd : -884 ≤ o - v * f ∧ o - v * f ≤ 884 := by
    unfold OneStep at hv
    generalize o.tdiv f = q at hm hv
    generalize o.tmod f = r at hm ht
    rcases hv with rfl | ⟨_, rfl⟩ | ⟨_, rfl⟩
    · have : v * f = f * v := by ring
      omega
    · have : (q - 1) * f = f * q - f := by ring
      omega
    · have : (q + 1) * f = f * q + f := by ring
      omega
  have e : toInt16 (o - v * f) = o - v * f := by
    unfold toInt16
    rw [Int.bmod_def]
    omega
  rw [e]
  generalize o - v * f = d at hd
  have : d * d ≤ 781456 := by nlinarith
  omega

theorem rdcost_lt {r d R D : Nat} (hd : d ≤ 12503296) (hD : D ≤ 100) : rdcost r d R D < 2 ^ 32 - 1 := by
  unfold rdcost
  have h1 : (128 + r * R) % 2 ^ 32 < 2 ^ 32 := Nat.mod_lt _ (by decide)
  have h2 : d * D ≤ 12503296 * 100 := Nat.mul_le_mul hd hD
  generalize (128 + r * R) % 2 ^ 32 = x at *
  generalize d * D = y at *
  omega

theorem trellisNode_total {costs : TrellisCosts} (hD : costs.distortion ≤ 100) {idx : Fin 16} {o : Int} {f : Nat} {next : Fin 2 → TrellisNode}
    {v : Int} (h1 : 1 ≤ f) (h2 : f ≤ 442) (ho : -32768 ≤ o ∧ o ≤ 32767) (hv : OneStep (toInt16 (o.tdiv f)) v) (hr : -2048 ≤ v ∧ v ≤ 2047)
    {m : Nat} (hm : m ≤ 15) (hn : ∀ i, (next i).distortion ≤ m * 781456) :
    ∃ n, trellisNode costs idx o f next v = some n ∧ n.distortion ≤ (m + 1) * 781456 := by
  have hs := diff_small h1 h2 ho hv
  unfold trellisNode
  dsimp only
  generalize (toInt16 (o - v * f) * toInt16 (o - v * f)).toNat = sse at hs
  have hmod : ∀ i, ((next i).distortion + sse) % 2 ^ 32 = (next i).distortion + sse := fun i => Nat.mod_eq_of_lt (by have := hn i; omega)
  obtain ⟨b, hb⟩ := chooseNext_lt (a := costThrough costs idx (tokenForCoeff v) sse (next 0)) (b := costThrough costs idx (tokenForCoeff v) sse (next 1))
    (by unfold costThrough; rw [hmod]; exact rdcost_lt (by have := hn 0; omega) hD)
  rw [hb, Option.bind_eq_bind, Option.bind_some]
  split
  · exact ⟨_, rfl, by dsimp only; rw [hmod]; have := hn b; omega⟩
  · exact ⟨_, rfl, by dsimp only; omega⟩

theorem trellisNodes_total {costs : TrellisCosts} (hD : costs.distortion ≤ 100) {idx : Fin 16} {o : Int} {f : Nat} {next : Fin 2 → TrellisNode}
    (h1 : 1 ≤ f) (h2 : f ≤ 442) (ho : -32768 ≤ o ∧ o ≤ 32767) (hr : -2048 ≤ toInt16 (o.tdiv f) ∧ toInt16 (o.tdiv f) ≤ 2047)
    {m : Nat} (hm : m ≤ 15) (hn : ∀ i, (next i).distortion ≤ m * 781456) :
    ∃ n, trellisNodes costs idx o f next = some n ∧ ∀ i, (n i).distortion ≤ (m + 1) * 781456 := by
  have key : ∀ {s v}, candidate (toInt16 (o.tdiv f)) s = some v →
      ∃ n, trellisNode costs idx o f next v = some n ∧ n.distortion ≤ (m + 1) * 781456 := by
    intro s v hv
    have hs := candidate_steps hv
    refine trellisNode_total hD h1 h2 ho hs ?_ hm hn
    unfold OneStep at hs
    omega
  unfold trellisNodes
  rw [if_neg (by omega)]
  dsimp only
  have h0 : ∃ v0, candidate (toInt16 (o.tdiv f)) 0 = some v0 := by
    unfold candidate
    split
    · exact ⟨_, rfl⟩
    · rw [if_pos (Or.inr rfl)]; exact ⟨_, rfl⟩
  obtain ⟨v0, h0⟩ := h0
  obtain ⟨n0, hn0, hd0⟩ := key h0
  rw [h0]
  dsimp only
  rw [hn0, Option.bind_eq_bind, Option.bind_some]
  cases h1 : candidate (toInt16 (o.tdiv f)) 1 with
  | none =>
    refine ⟨_, rfl, fun i => ?_⟩
    have : i = 0 ∨ i = 1 := by omega
    rcases this with rfl | rfl <;> exact hd0
  | some v1 =>
    obtain ⟨n1, hn1, hd1⟩ := key h1
    dsimp only
    rw [hn1]
    refine ⟨_, rfl, fun i => ?_⟩
    have : i = 0 ∨ i = 1 := by omega
    rcases this with rfl | rfl
    · exact hd0
    · exact hd1

theorem buildTrellis_total {costs : TrellisCosts} (hD : costs.distortion ≤ 100) {c : Fin 16 → Int} {dc ac : Nat} (h1 : 1 ≤ dc ∧ 1 ≤ ac)
    (h2 : dc ≤ 442 ∧ ac ≤ 442) (hc : ∀ i, -32768 ≤ c i ∧ c i ≤ 32767) (is : List (Fin 16))
    (hr : ∀ i ∈ is, -2048 ≤ plainAt c dc ac i ∧ plainAt c dc ac i ≤ 2047) (hl : is.length ≤ 16) :
    ∃ n t, buildTrellis costs c dc ac is = some (n :: t) ∧ ∀ i, (n i).distortion ≤ is.length * 781456 := by
  induction is with
  | nil => exact ⟨_, _, rfl, fun i => Nat.zero_le _⟩
  | cons idx is ih =>
    rw [List.length_cons] at hl
    obtain ⟨n, t, e, hn⟩ := ih (fun i hi => hr i (List.mem_cons_of_mem _ hi)) (by omega)
    obtain ⟨n', e', hn'⟩ := trellisNodes_total (costs := costs) hD (idx := idx) (o := c (zigzag idx)) (f := if idx = 0 then dc else ac) (next := n)
      (by split <;> omega) (by split <;> omega) (hc _) (hr idx List.mem_cons_self) (by omega) hn
    refine ⟨n', n :: t, ?_, by rw [List.length_cons]; exact hn'⟩
    unfold buildTrellis
    rw [e, Option.bind_eq_bind, Option.bind_some]
    dsimp only
    rw [e']
    rfl

end Alfalfa
