import Verif.Proof.InterMacroblock
import Verif.Proof.Tokens
import Verif.Proof.Header
import Verif.Spec.Frame

namespace Alfalfa

/-! ### Grids -/

theorem gridAbove_append {α : Type} {w : Nat} (a b : List α) {k : Nat} (hw : 0 < w) (hk : k ≤ a.length) :
    gridAbove w (a ++ b) k = gridAbove w a k := by
  unfold gridAbove
  by_cases h : k / w = 0
  · rw [if_pos h, if_pos h]
  · rw [if_neg h, if_neg h]
    have : w ≤ k := by
      by_contra hc
      exact h (Nat.div_eq_of_lt (by omega))
    exact List.getElem?_append_left (by omega)

theorem gridLeft_append {α : Type} {w : Nat} (a b : List α) {k : Nat} (hk : k ≤ a.length) :
    gridLeft w (a ++ b) k = gridLeft w a k := by
  unfold gridLeft
  by_cases h : k % w = 0
  · rw [if_pos h, if_pos h]
  · rw [if_neg h, if_neg h]
    have : 0 < k := by
      rcases Nat.eq_zero_or_pos k with h0 | h0
      · rw [h0, Nat.zero_mod] at h; exact absurd rfl h
      · exact h0
    exact List.getElem?_append_left (by omega)

theorem gridAboveLeft_append {α : Type} {w : Nat} (a b : List α) {k : Nat} (hw : 0 < w) (hk : k ≤ a.length) :
    gridAboveLeft w (a ++ b) k = gridAboveLeft w a k := by
  unfold gridAboveLeft
  by_cases h : k / w = 0 ∨ k % w = 0
  · rw [if_pos h, if_pos h]
  · rw [if_neg h, if_neg h]
    have : w ≤ k := by
      by_contra hc
      exact h (Or.inl (Nat.div_eq_of_lt (by omega)))
    exact List.getElem?_append_left (by omega)

theorem gridContext_append {w : Nat} (h : Nat) (a b : List MBModes) {k : Nat} (hw : 0 < w) (hk : k ≤ a.length) :
    gridContext w h (a ++ b) k = gridContext w h a k := by
  unfold gridContext
  rw [gridAbove_append a b hw hk, gridLeft_append a b hk, gridAboveLeft_append a b hw hk]

theorem gridAbove_mem {α : Type} {w : Nat} {a : List α} {k : Nat} {x : α} (h : gridAbove w a k = some x) : ∃ j : Nat, a[j]? = some x := by
  unfold gridAbove at h
  by_cases c : k / w = 0
  · rw [if_pos c] at h; exact nomatch h
  · rw [if_neg c] at h; exact ⟨_, h⟩

theorem gridLeft_mem {α : Type} {w : Nat} {a : List α} {k : Nat} {x : α} (h : gridLeft w a k = some x) : ∃ j : Nat, a[j]? = some x := by
  unfold gridLeft at h
  by_cases c : k % w = 0
  · rw [if_pos c] at h; exact nomatch h
  · rw [if_neg c] at h; exact ⟨_, h⟩

/-! ### Macroblock headers -/

theorem parses_MBs {f : MBContext → MBModes → Option Bits} {p : MBContext → Parser MBModes} {w h : Nat} (hw : 0 < w) (all : List MBModes)
    (hstep : ∀ k m, all[k]? = some m → ∃ bits, f (gridContext w h all k) m = some bits ∧ Parses (p (gridContext w h all k)) bits m) :
    ∀ (rest done : List MBModes), all = done ++ rest →
      ∃ bits, writeMBs f w h all done.length rest = some bits ∧ Parses (parseMBs p w h rest.length done) bits all
  | [], done, e => ⟨[], rfl, by rw [e, List.append_nil]; exact Parses.pure _⟩
  | m :: rest, done, e => by
    obtain ⟨a, ha, pa⟩ := hstep done.length m (by rw [e]; simp)
    obtain ⟨b, hb, pb⟩ := parses_MBs hw all hstep rest (done ++ [m]) (by rw [e]; simp)
    refine ⟨a ++ b, ?_, ?_⟩
    · rw [writeMBs, ha]
      rw [List.length_append, List.length_singleton] at hb
      show (writeMBs f w h all (done.length + 1) rest >>= _) = _
      rw [hb]; rfl
    · rw [List.length_cons, parseMBs]
      rw [e, gridContext_append h done _ hw (Nat.le_refl _)] at pa
      exact Parses.bind pa pb

theorem produces_MBs {p : MBContext → Parser MBModes} {P : MBContext → MBModes → Prop} {w h : Nat} (hw : 0 < w)
    (hstep : ∀ c, (∀ n, c.above = some n → ∃ c', P c' n) → (∀ n, c.left = some n → ∃ c', P c' n) → Produces (p c) (P c)) :
    ∀ (n : Nat) (done : List MBModes), (∀ k m, done[k]? = some m → P (gridContext w h done k) m) →
      Produces (parseMBs p w h n done) (fun all => all.length = done.length + n ∧ ∀ k m, all[k]? = some m → P (gridContext w h all k) m)
  | 0, done, hd => Produces.pure ⟨rfl, hd⟩
  | n + 1, done, hd => by
    rw [parseMBs]
    refine Produces.bind (hstep _ (fun x hx => ?_) (fun x hx => ?_)) fun m hm => ?_
    · obtain ⟨j, hj⟩ := gridAbove_mem hx; exact ⟨_, hd j x hj⟩
    · obtain ⟨j, hj⟩ := gridLeft_mem hx; exact ⟨_, hd j x hj⟩
    refine (produces_MBs hw hstep n (done ++ [m]) fun k x hx => ?_).mono fun all ha => ⟨?_, ha.2⟩
    · have hk : k ≤ done.length := by
        have := (List.getElem?_eq_some_iff.mp hx).1
        simp at this; omega
      rw [gridContext_append h done _ hw hk]
      rcases Nat.lt_or_eq_of_le hk with hlt | heq
      · rw [List.getElem?_append_left hlt] at hx
        exact hd k x hx
      · subst heq
        rw [List.getElem?_append_right (Nat.le_refl _), Nat.sub_self] at hx
        cases hx
        exact hm
    · rw [ha.1]; simp; omega

/-! ### Coefficients of a macroblock -/

theorem y2Coded_iff (m : MBModes) : m.y2Coded = true ↔ ¬ (m.yMode = B_PRED ∨ m.yMode = SPLITMV) := by
  unfold MBModes.y2Coded
  simp

theorem yType_eq (m : MBModes) : m.yType = if m.yMode = B_PRED ∨ m.yMode = SPLITMV then BlockType.yWithoutY2 else .yAfterY2 := by
  unfold MBModes.yType
  by_cases h : m.yMode = B_PRED ∨ m.yMode = SPLITMV
  · rw [if_pos h, if_neg]; intro hc; exact (y2Coded_iff m).mp hc h
  · rw [if_neg h, if_pos ((y2Coded_iff m).mpr h)]

theorem parses_chroma (probs : CoeffProbs) (above left : Option (Fin 4 → Block)) (b : Fin 4 → Block) (h : ∀ i, (b i).Representable .uv) :
    ∃ bits, writeChroma probs above left b = some bits ∧ Parses (parseChroma probs above left) bits b := by
  obtain ⟨a0, h0, p0⟩ := parses_tokens probs .uv (above.map fun b => (b 2).hasNonzero) (left.map fun b => (b 1).hasNonzero) (b 0) (h 0)
  obtain ⟨a1, h1, p1⟩ := parses_tokens probs .uv (above.map fun b => (b 3).hasNonzero) (some (b 0).hasNonzero) (b 1) (h 1)
  obtain ⟨a2, h2, p2⟩ := parses_tokens probs .uv (some (b 0).hasNonzero) (left.map fun b => (b 3).hasNonzero) (b 2) (h 2)
  obtain ⟨a3, h3, p3⟩ := parses_tokens probs .uv (some (b 1).hasNonzero) (some (b 2).hasNonzero) (b 3) (h 3)
  refine ⟨a0 ++ (a1 ++ (a2 ++ a3)), ?_, ?_⟩
  · unfold writeChroma
    rw [h0, h1, h2, h3]; rfl
  · unfold parseChroma
    refine Parses.bind p0 (Parses.bind p1 (Parses.bind p2 (Parses.bindPure p3 ?_)))
    funext i
    fin_cases i <;> rfl

theorem produces_chroma (probs : CoeffProbs) (above left : Option (Fin 4 → Block)) :
    Produces (parseChroma probs above left) (fun b => ∀ i, (b i).Representable .uv) := by
  unfold parseChroma
  refine Produces.bind (produces_tokens _ _ _ _) fun b0 h0 => Produces.bind (produces_tokens _ _ _ _) fun b1 h1 =>
    Produces.bind (produces_tokens _ _ _ _) fun b2 h2 => Produces.bind (produces_tokens _ _ _ _) fun b3 h3 => Produces.pure ?_
  intro i
  fin_cases i
  · exact h0
  · exact h1
  · exact h2
  · exact h3

theorem parses_luma (probs : CoeffProbs) (type : BlockType) (above left : Option (Fin 16 → Block)) (b : Fin 16 → Block)
    (h : ∀ i, (b i).Representable type) :
    ∃ bits, writeGroups (writeLuma probs type above left b) singleGroups = some bits ∧
      Parses (fillGroups (parseLuma probs type above left) singleGroups (fun _ => {})) bits b := by
  obtain ⟨bits, h1, cells, h2, h3⟩ := parses_fillGroups (parseLuma probs type above left) (writeLuma probs type above left b) b
    singleGroups (fun _ => {}) [] (fun _ h => absurd h List.not_mem_nil) singleGroups_ok
    (fun g hg i hi j hj => by rw [singleGroups_eq g hg i hi j hj])
    (fun g _ i _ cells hc => by
      unfold parseLuma writeLuma
      rw [aboveOf_congr hc, leftOf_congr hc]
      exact parses_tokens _ _ _ _ _ (h i))
  refine ⟨bits, h1, ?_⟩
  have : cells = b := funext fun j => h3 j (singleGroups_cover j)
  rwa [this] at h2

theorem produces_luma (probs : CoeffProbs) (type : BlockType) (above left : Option (Fin 16 → Block)) :
    Produces (fillGroups (parseLuma probs type above left) singleGroups (fun _ => {})) (fun b => ∀ i, (b i).Representable type) := by
  refine (produces_fillGroups (parseLuma probs type above left) (fun x => x.Representable type) (fun _ _ _ => True)
    (fun _ _ _ _ _ _ => trivial) (fun c i _ => ?_) singleGroups (fun _ => {}) [] (fun _ h => absurd h List.not_mem_nil)
    singleGroups_ok).mono fun b hb i => (hb.2 [i] (singleGroups_mem i) i rfl).1
  unfold parseLuma
  exact (produces_tokens _ _ _ _).mono fun x hx => ⟨hx, trivial⟩

theorem parses_y2 (probs : CoeffProbs) (m : MBModes) (a l : Option Bool) (r : Residue) (h : r.Ok m) :
    ∃ bits, writeY2 probs m.y2Coded a l r.y2 = some bits ∧ Parses (parseY2 probs m.y2Coded a l) bits r.y2 := by
  unfold writeY2 parseY2
  by_cases hc : m.y2Coded = true
  · rw [if_pos hc, if_pos hc]
    exact parses_tokens _ _ _ _ _ h.y2
  · rw [if_neg hc, if_neg hc]
    refine ⟨[], rfl, ?_⟩
    have : m.yMode = B_PRED ∨ m.yMode = SPLITMV := by
      by_contra hn; exact hc ((y2Coded_iff m).mpr hn)
    rw [h.noY2 this]
    exact Parses.pure _

theorem any_ofFn {n : Nat} (b : Fin n → Block) : (List.ofFn b).any (·.hasNonzero) = true ↔ ∃ i, (b i).hasNonzero = true := by
  simp [List.any_eq_true, List.mem_ofFn]

theorem nonzero_iff (y2 : Block) (y : Fin 16 → Block) (u v : Fin 4 → Block) :
    (y2.hasNonzero || (List.ofFn y).any (·.hasNonzero) || (List.ofFn u).any (·.hasNonzero) || (List.ofFn v).any (·.hasNonzero)) = true ↔
    y2.hasNonzero = true ∨ (∃ i, (y i).hasNonzero = true) ∨ (∃ i, (u i).hasNonzero = true) ∨ (∃ i, (v i).hasNonzero = true) := by
  rw [Bool.or_eq_true, Bool.or_eq_true, Bool.or_eq_true, any_ofFn, any_ofFn, any_ofFn, or_assoc, or_assoc]

theorem parses_residue (probs : CoeffProbs) (m : MBModes) (a l : Option Bool) (above left : Option Residue) (r : Residue) (h : r.Ok m) :
    ∃ bits, writeResidue probs m a l above left r = some bits ∧ Parses (parseResidue probs m a l above left) bits r := by
  unfold writeResidue parseResidue
  by_cases hs : m.skip.getD false = true
  · rw [if_pos hs, if_pos hs]
    refine ⟨[], rfl, ?_⟩
    have : m.skip = some true := by
      cases hm : m.skip with
      | none => rw [hm] at hs; cases hs
      | some b => rw [hm] at hs; cases b; cases hs; rfl
    rw [h.skipped this]
    exact Parses.pure _
  · rw [if_neg hs, if_neg hs]
    obtain ⟨b0, h0, p0⟩ := parses_y2 probs m a l r h
    obtain ⟨b1, h1, p1⟩ := parses_luma probs m.yType (above.map (·.y)) (left.map (·.y)) r.y (fun i => by rw [yType_eq]; exact h.y i)
    obtain ⟨b2, h2, p2⟩ := parses_chroma probs (above.map (·.u)) (left.map (·.u)) r.u h.u
    obtain ⟨b3, h3, p3⟩ := parses_chroma probs (above.map (·.v)) (left.map (·.v)) r.v h.v
    refine ⟨b0 ++ (b1 ++ (b2 ++ b3)), ?_, ?_⟩
    · rw [h0, h1, h2, h3]; rfl
    · refine Parses.bind p0 (Parses.bind p1 (Parses.bind p2 (Parses.bindPure p3 ?_)))
      have hn := h.nonzero
      rw [← nonzero_iff, ← Bool.eq_iff_iff] at hn
      rw [← hn]

theorem representable_default (t : BlockType) : ({} : Block).Representable t := by
  constructor
  · intro i; exact (by decide : (-2114 : Int) ≤ 0 ∧ (0 : Int) ≤ 2114)
  · intro _; rfl
  · constructor
    · intro h; cases h
    · rintro ⟨i, hi⟩; exact absurd rfl hi

theorem produces_residue (probs : CoeffProbs) (m : MBModes) (a l : Option Bool) (above left : Option Residue) :
    Produces (parseResidue probs m a l above left) (Residue.Ok m) := by
  unfold parseResidue
  by_cases hs : m.skip.getD false = true
  · rw [if_pos hs]
    refine Produces.pure ⟨fun _ => rfl, fun _ => rfl, representable_default _, fun _ => representable_default _,
      fun _ => representable_default _, fun _ => representable_default _, ?_⟩
    simp [show ({} : Residue).nonzero = false from rfl, show ({} : Residue).y2.hasNonzero = false from rfl]
  · rw [if_neg hs]
    have hy2 : Produces (parseY2 probs m.y2Coded a l) (fun b => b.Representable .y2 ∧ (m.y2Coded = false → b = {})) := by
      unfold parseY2
      by_cases hc : m.y2Coded = true
      · rw [if_pos hc]
        exact (produces_tokens _ _ _ _).mono fun x hx => ⟨hx, fun hn => by rw [hc] at hn; cases hn⟩
      · rw [if_neg hc]
        exact Produces.pure ⟨representable_default _, fun _ => rfl⟩
    refine Produces.bind hy2 fun y2 h2 => Produces.bind (produces_luma _ _ _ _) fun y hy => Produces.bind (produces_chroma _ _ _) fun u hu =>
      Produces.bind (produces_chroma _ _ _) fun v hv => Produces.pure ⟨?_, ?_, h2.1, ?_, hu, hv, nonzero_iff _ _ _ _⟩
    · intro hk; rw [hk] at hs; exact absurd rfl hs
    · intro hk
      apply h2.2
      by_contra hc
      exact (y2Coded_iff m).mp (by simpa using hc) hk
    · intro i; rw [← yType_eq]; exact hy i

/-! ### Y2 links -/

theorem relinkY2_length (w : Nat) : ∀ (modes : List MBModes) (k : Nat) (ac lc : Nat → Option Nat), (relinkY2 w k modes ac lc).length = modes.length
  | [], _, _, _ => rfl
  | _ :: rest, k, ac, lc => by rw [relinkY2, List.length_cons, relinkY2_length w rest, List.length_cons]

/-- Every link leads to an earlier macroblock. -/
def LinksBelow : Nat → List (MBModes × Option Nat × Option Nat) → Prop
  | _, [] => True
  | k, (_, la, ll) :: rest => (∀ i, la = some i → i < k) ∧ (∀ i, ll = some i → i < k) ∧ LinksBelow (k + 1) rest

theorem update_below {k : Nat} {f : Nat → Option Nat} (h : ∀ c i, f c = some i → i < k) (b : Bool) (x : Nat) :
    ∀ c i, (if b then Function.update f x (some k) else f) c = some i → i < k + 1 := by
  intro c i hi
  cases b with
  | false => exact Nat.lt_succ_of_lt (h c i hi)
  | true =>
    simp only [if_true] at hi
    by_cases hc : c = x
    · subst hc
      rw [Function.update_self] at hi
      cases hi; omega
    · rw [Function.update_of_ne hc] at hi
      exact Nat.lt_succ_of_lt (h c i hi)

theorem relinkY2_below (w : Nat) : ∀ (modes : List MBModes) (k : Nat) (ac lc : Nat → Option Nat), (∀ c i, ac c = some i → i < k) →
    (∀ c i, lc c = some i → i < k) → LinksBelow k (modes.zip (relinkY2 w k modes ac lc))
  | [], _, _, _, _, _ => trivial
  | m :: rest, k, ac, lc, ha, hl => by
    rw [relinkY2, List.zip_cons_cons]
    exact ⟨ha _, hl _, relinkY2_below w rest (k + 1) _ _ (update_below ha _ _) (update_below hl _ _)⟩

theorem linkFlag_append (a b : List Residue) (l : Option Nat) (h : ∀ i, l = some i → i < a.length) : linkFlag (a ++ b) l = linkFlag a l := by
  unfold linkFlag
  cases l with
  | none => rfl
  | some i => simp only [Option.bind_some]; rw [List.getElem?_append_left (h i rfl)]

/-! ### Coefficient partitions -/

/-- The bits of partition `j` among the macroblocks from index `k` on. -/
def partBits (w P j : Nat) : Nat → List Bits → Bits
  | _, [] => []
  | k, b :: rest => (if k / w % P = j then b else []) ++ partBits w P j (k + 1) rest

theorem writeResidues_spec (probs : CoeffProbs) {w : Nat} (hw : 0 < w) (all : List Residue) :
    ∀ (L : List (MBModes × Option Nat × Option Nat)) (rest done : List Residue) (parts : List Bits), parts ≠ [] → all = done ++ rest →
      L.length = rest.length → LinksBelow done.length L →
      (∀ (j : Nat) (e : MBModes × Option Nat × Option Nat) (r : Residue), L[j]? = some e → rest[j]? = some r → r.Ok e.1) →
      ∃ bss final, writeResidues probs w all done.length L rest parts = some final ∧ final.length = parts.length ∧
        (∀ j p, parts[j]? = some p → final[j]? = some (p ++ partBits w parts.length j done.length bss)) ∧
        ∀ ds : List BoolDecoder, ds.length = parts.length →
          (∀ j d, ds[j]? = some d → Reads d (partBits w parts.length j done.length bss)) → parseResidues probs w L done ds = some all
  | [], [], done, parts, _, e, _, _, _ => by
    refine ⟨[], parts, rfl, rfl, fun j p hp => ?_, fun ds _ _ => ?_⟩
    · rw [hp]; simp [partBits]
    · rw [e, List.append_nil]; rfl
  | [], _ :: _, _, _, _, _, h, _, _ => nomatch h
  | _ :: _, [], _, _, _, _, h, _, _ => nomatch h
  | (m, la, ll) :: L, r :: rest, done, parts, hne, e, hlen, hlb, hok => by
    obtain ⟨hla, hll, hlb⟩ := hlb
    have hpos : 0 < parts.length := List.length_pos_iff.mpr hne
    obtain ⟨b, hb, pb⟩ := parses_residue probs m (linkFlag all la) (linkFlag all ll) (gridAbove w all done.length)
      (gridLeft w all done.length) r (hok 0 (m, la, ll) r rfl rfl)
    have hi : done.length / w % parts.length < parts.length := Nat.mod_lt _ hpos
    obtain ⟨bss, final, h1, h2, h3, h4⟩ := writeResidues_spec probs hw all L rest (done ++ [r])
      (parts.set (done.length / w % parts.length) (parts[done.length / w % parts.length] ++ b))
      (by intro hc; have := congrArg List.length hc; rw [List.length_set, List.length_nil] at this; omega) (by rw [e]; simp)
      (by simpa using hlen) (by simpa using hlb) (fun j e' r' he hr => hok (j + 1) e' r' he hr)
    rw [List.length_set] at h2 h3 h4
    rw [List.length_append, List.length_singleton] at h1 h3 h4
    refine ⟨b :: bss, final, ?_, h2, fun j p hp => ?_, fun ds hds hr => ?_⟩
    · rw [writeResidues, hb]
      show (parts[done.length / w % parts.length]? >>= _) = _
      rw [List.getElem?_eq_getElem hi]
      exact h1
    · rw [partBits]
      by_cases hj : done.length / w % parts.length = j
      · rw [if_pos hj]
        subst hj
        have hp' : p = parts[done.length / w % parts.length] := by
          rw [List.getElem?_eq_getElem hi] at hp; exact (Option.some.inj hp).symm
        rw [h3 _ (parts[done.length / w % parts.length] ++ b) (by rw [List.getElem?_set_self hi]), hp', List.append_assoc]
      · rw [if_neg hj, List.nil_append]
        exact h3 j p (by rw [List.getElem?_set_ne hj]; exact hp)
    · rw [parseResidues]
      simp only
      rw [hds]
      generalize hidx : done.length / w % parts.length = i at hi h4 ⊢
      obtain ⟨d, hd⟩ : ∃ d, ds[i]? = some d := ⟨_, List.getElem?_eq_getElem (by omega)⟩
      have hrd := hr i d hd
      rw [partBits, if_pos hidx, reads_append] at hrd
      rw [hd]
      have hstep : parseResidue probs m (linkFlag done la) (linkFlag done ll) (gridAbove w done done.length)
          (gridLeft w done done.length) d = some (r, after d b) := by
        have := pb _ hrd.1
        rw [e, linkFlag_append done _ la hla, linkFlag_append done _ ll hll, gridAbove_append done _ hw (Nat.le_refl _),
          gridLeft_append done _ (Nat.le_refl _)] at this
        exact this
      show (parseResidue probs m (linkFlag done la) (linkFlag done ll) (gridAbove w done done.length) (gridLeft w done done.length)
        d >>= _) = _
      rw [hstep]
      refine h4 _ (by rw [List.length_set, hds]) fun j d' hjd => ?_
      by_cases hj : i = j
      · subst hj
        rw [List.getElem?_set_self (by omega)] at hjd
        cases hjd
        exact hrd.2
      · rw [List.getElem?_set_ne hj] at hjd
        have := hr j d' hjd
        rw [partBits, if_neg (by rw [hidx]; exact hj), List.nil_append] at this
        exact this

theorem produces_residues (probs : CoeffProbs) (w : Nat) :
    ∀ (L : List (MBModes × Option Nat × Option Nat)) (done : List Residue) (ds : List BoolDecoder), ds ≠ [] →
      ∃ rest, parseResidues probs w L done ds = some (done ++ rest) ∧ rest.length = L.length ∧
        ∀ (j : Nat) (e : MBModes × Option Nat × Option Nat) (r : Residue), L[j]? = some e → rest[j]? = some r → r.Ok e.1
  | [], done, ds, _ => ⟨[], by rw [List.append_nil]; rfl, rfl, fun j e r h => nomatch h⟩
  | (m, la, ll) :: L, done, ds, hne => by
    have hpos : 0 < ds.length := List.length_pos_iff.mpr hne
    have hi' : done.length / w % ds.length < ds.length := Nat.mod_lt _ hpos
    obtain ⟨r, d', h1, h2⟩ := produces_residue probs m (linkFlag done la) (linkFlag done ll) (gridAbove w done done.length)
      (gridLeft w done done.length) ds[done.length / w % ds.length]
    obtain ⟨rest, h3, h4, h5⟩ := produces_residues probs w L (done ++ [r]) (ds.set (done.length / w % ds.length) d')
      (by intro hc; have := congrArg List.length hc; rw [List.length_set, List.length_nil] at this; omega)
    refine ⟨r :: rest, ?_, by simp [h4], fun j e x he hx => ?_⟩
    · rw [parseResidues]
      simp only
      rw [List.getElem?_eq_getElem hi']
      show (parseResidue probs m (linkFlag done la) (linkFlag done ll) (gridAbove w done done.length) (gridLeft w done done.length)
        ds[done.length / w % ds.length] >>= _) = _
      rw [h1]
      show parseResidues probs w L (done ++ [r]) _ = _
      rw [h3, List.append_assoc]; rfl
    · cases j with
      | zero => cases he; cases hx; exact h2
      | succ j => exact h5 j e x he hx

/-! ### The bits do not depend on the `complete_chunk` argument -/

/-- Equal but for the flags `valid` and `complete_chunk`. -/
def SameReader (d d' : BoolDecoder) : Prop := ∃ v c, d' = { d with valid := v, completeChunk := c }

theorem sameReader_load {d d' : BoolDecoder} (h : SameReader d d') : SameReader d.loadOctet d'.loadOctet := by
  obtain ⟨v, c, rfl⟩ := h
  unfold BoolDecoder.loadOctet
  rcases hd : d.chunk with _ | ⟨b, rest⟩
  · simp only
    by_cases h1 : d.completeChunk = true
    · by_cases h2 : c = true
      · rw [if_pos h1, if_pos h2]; exact ⟨v, c, by rw [← hd]⟩
      · rw [if_pos h1, if_neg h2]; exact ⟨false, c, by rw [← hd]⟩
    · by_cases h2 : c = true
      · rw [if_neg h1, if_pos h2]; exact ⟨v, c, by rw [← hd]⟩
      · rw [if_neg h1, if_neg h2]; exact ⟨false, c, by rw [← hd]⟩
  · exact ⟨v, c, rfl⟩

theorem sameReader_init (chunk : List UInt8) (c c' : Bool) : SameReader (BoolDecoder.init chunk c) (BoolDecoder.init chunk c') := by
  unfold BoolDecoder.init
  simp only
  apply sameReader_load
  have h0 : SameReader ({ chunk, completeChunk := c }) ({ chunk, completeChunk := c' }) := ⟨true, c', rfl⟩
  obtain ⟨v, e, h2⟩ := sameReader_load h0
  exact ⟨v, e, by rw [h2]⟩

theorem sameReader_shift {d d' : BoolDecoder} (h : SameReader d d') : SameReader d.shiftOnce d'.shiftOnce := by
  obtain ⟨v, c, rfl⟩ := h
  unfold BoolDecoder.shiftOnce
  simp only
  split
  · exact sameReader_load ⟨v, c, rfl⟩
  · exact ⟨v, c, rfl⟩

theorem sameReader_renorm {d d' : BoolDecoder} (h : SameReader d d') (n : Nat) : SameReader (d.renorm n) (d'.renorm n) := by
  induction n generalizing d d' with
  | zero => exact h
  | succ n ih =>
    have hr : d'.range = d.range := by obtain ⟨v, c, rfl⟩ := h; rfl
    unfold BoolDecoder.renorm
    rw [hr]
    split
    · exact ih (sameReader_shift h)
    · exact h

theorem sameReader_get {d d' : BoolDecoder} (h : SameReader d d') (p : Prob) :
    (d'.get p).1 = (d.get p).1 ∧ SameReader (d.get p).2 (d'.get p).2 := by
  obtain ⟨v, c, rfl⟩ := h
  unfold BoolDecoder.get
  simp only
  split
  · exact ⟨rfl, sameReader_renorm ⟨v, c, rfl⟩ 8⟩
  · exact ⟨rfl, sameReader_renorm ⟨v, c, rfl⟩ 8⟩

theorem Reads.same {d d' : BoolDecoder} (h : SameReader d d') : ∀ {s : List (Bool × Prob)}, Reads d s → Reads d' s := by
  intro s
  induction s generalizing d d' with
  | nil => intro _; trivial
  | cons x s ih =>
    obtain ⟨b, p⟩ := x
    intro hr
    have := sameReader_get h p
    exact ⟨this.1.trans hr.1, ih this.2 hr.2⟩

end Alfalfa
