import Verif.Spec.Grid
import Verif.Model.Frame

/-! C48: a two-dimensional buffer is a faithful grid. -/

namespace Alfalfa

variable {T : Type}

theorem slot_lt {w h c r : Nat} (hc : c < w) (hr : r < h) : r * w + c < w * h := by
  have : (r + 1) * w ≤ h * w := Nat.mul_le_mul_right w (by omega)
  rw [Nat.add_mul] at this
  rw [Nat.mul_comm w h]; omega

theorem slot_div {w c r : Nat} (hc : c < w) : (r * w + c) / w = r := by
  rw [Nat.mul_comm, Nat.mul_add_div (by omega), Nat.div_eq_of_lt hc, Nat.add_zero]

theorem slot_mod {w c r : Nat} (hc : c < w) : (r * w + c) % w = c := by
  rw [Nat.mul_comm, Nat.mul_add_mod, Nat.mod_eq_of_lt hc]

theorem slot_inj {w c r c' r' : Nat} (hc : c < w) (hc' : c' < w) (h : r * w + c = r' * w + c') : c = c' ∧ r = r' :=
  ⟨by rw [← slot_mod (r := r) hc, h, slot_mod hc'], by rw [← slot_div (r := r) hc, h, slot_div hc']⟩

theorem Grid.slot_eq {g : Grid T} (hs : g.width * g.height < 2 ^ 32) {c r : Nat} (hc : c < g.width) (hr : r < g.height) :
    g.slot c r = r * g.width + c := Nat.mod_eq_of_lt (Nat.lt_trans (slot_lt hc hr) hs)

/-- Reading a cell of a finished buffer. -/
theorem Grid.at?_eq {g : Grid T} (hg : g.Full) {c r : Nat} (hc : c < g.width) (hr : r < g.height) :
    g.at? c r = some (g.cells[r * g.width + c]'(by rw [hg.cells]; exact slot_lt hc hr)) := by
  rw [Grid.at?, if_pos ⟨hc, hr⟩, Grid.slot_eq hg.small hc hr, List.getElem?_eq_getElem]

/-- **C48** (addressing): a coordinate can be read exactly when it is inside, and different coordinates inside have
different slots of the vector, all inside it. -/
theorem C48_addressing {g : Grid T} (hg : g.Full) :
    (∀ c r, (g.at? c r).isSome = true ↔ c < g.width ∧ r < g.height) ∧
    (∀ c r, c < g.width → r < g.height → g.slot c r < g.cells.length) ∧
    (∀ c r c' r', c < g.width → r < g.height → c' < g.width → r' < g.height → g.slot c r = g.slot c' r' → c = c' ∧ r = r') ∧
    (∀ k, k < g.cells.length → ∃ c r, c < g.width ∧ r < g.height ∧ g.slot c r = k) := by
  refine ⟨fun c r => ⟨fun h => ?_, fun ⟨hc, hr⟩ => by rw [Grid.at?_eq hg hc hr]; rfl⟩, fun c r hc hr => ?_, fun c r c' r' hc hr hc' hr' h => ?_,
    fun k hk => ?_⟩
  · by_contra hn; rw [Grid.at?, if_neg hn] at h; cases h
  · rw [Grid.slot_eq hg.small hc hr, hg.cells]; exact slot_lt hc hr
  · rw [Grid.slot_eq hg.small hc hr, Grid.slot_eq hg.small hc' hr'] at h; exact slot_inj hc hc' h
  · rw [hg.cells] at hk
    have h1 : k % g.width < g.width := Nat.mod_lt _ hg.width
    have h2 : k / g.width < g.height := Nat.div_lt_of_lt_mul hk
    exact ⟨k % g.width, k / g.width, h1, h2, by rw [Grid.slot_eq hg.small h1 h2, Nat.mul_comm]; exact Nat.div_add_mod k _⟩

/-- **C48** (writing): writing succeeds exactly inside the buffer; afterwards the written cell has the new value and every
other cell the value it had. -/
theorem C48_write {g : Grid T} (hg : g.Full) (c r : Nat) (v : T) :
    ((g.put c r v).isSome = true ↔ c < g.width ∧ r < g.height) ∧
    ∀ g', g.put c r v = some g' → g'.Full ∧ g'.width = g.width ∧ g'.height = g.height ∧ g'.at? c r = some v ∧
      ∀ c' r', (c', r') ≠ (c, r) → g'.at? c' r' = g.at? c' r' := by
  have hin : c < g.width → r < g.height → g.slot c r < g.cells.length := (C48_addressing hg).2.1 c r
  refine ⟨?_, fun g' hg' => ?_⟩
  · constructor
    · intro h; by_contra hn; rw [Grid.put, if_neg (fun hh => hn ⟨hh.1, hh.2.1⟩)] at h; cases h
    · intro ⟨hc, hr⟩; rw [Grid.put, if_pos ⟨hc, hr, hin hc hr⟩]; rfl
  · rw [Grid.put] at hg'
    split at hg'
    · next hh =>
      obtain ⟨hc, hr, hs⟩ := hh
      injection hg' with hg'
      subst hg'
      have hf : (({ g with cells := g.cells.set (g.slot c r) v } : Grid T)).Full :=
        ⟨hg.width, hg.height, hg.small, by simpa using hg.cells⟩
      refine ⟨hf, rfl, rfl, ?_, fun c' r' hne => ?_⟩
      · rw [Grid.at?, if_pos ⟨hc, hr⟩]
        show (g.cells.set (g.slot c r) v)[g.slot c r]? = some v
        rw [List.getElem?_set_self hs]
      · rw [Grid.at?, Grid.at?]
        by_cases hh : c' < g.width ∧ r' < g.height
        · rw [if_pos hh, if_pos hh]
          show (g.cells.set (g.slot c r) v)[g.slot c' r']? = g.cells[g.slot c' r']?
          rw [List.getElem?_set_ne]
          intro heq
          obtain ⟨rfl, rfl⟩ := (C48_addressing hg).2.2.1 c r c' r' hc hr hh.1 hh.2 heq
          exact hne rfl
        · rw [if_neg hh, if_neg hh]
    · cases hg'

example : (⟨3, 2, [1, 2, 3, 4, 5, 6]⟩ : Grid Nat).Full := ⟨by decide, by decide, by decide, by decide⟩
example : (⟨3, 2, [1, 2, 3, 4, 5, 6]⟩ : Grid Nat).put 1 1 9 = some ⟨3, 2, [1, 2, 3, 4, 9, 6]⟩ := by decide
example : (⟨3, 2, [1, 2, 3, 4, 5, 6]⟩ : Grid Nat).put 3 0 9 = none := by decide

theorem minusOne_zero : minusOne 0 = 2 ^ 32 - 1 := by decide

theorem minusOne_pos {x : Nat} (h0 : 0 < x) (h : x < 2 ^ 32) : minusOne x = x - 1 := by
  unfold minusOne; omega

theorem isNeighbour_maybeAt {g : Grid T} (hw : 0 < g.width) (hh : 0 < g.height) (hs : g.width * g.height < 2 ^ 32) {c r : Nat} (hc : c < g.width)
    (hr : r < g.height) :
    Context.Exact (g.context c r) g.width g.height c r := by
  have hw32 : g.width < 2 ^ 32 := Nat.lt_of_le_of_lt (Nat.le_mul_of_pos_right _ hh) hs
  have hh32 : g.height < 2 ^ 32 := Nat.lt_of_le_of_lt (Nat.le_mul_of_pos_left _ hw) hs
  have key : ∀ (dc dr : Int) (c' r' : Nat), -1 ≤ dc → dc ≤ 1 → -1 ≤ dr → dr ≤ 1 →
      ((0 ≤ (c : Int) + dc → (c : Int) + dc = c') ∧ ((c : Int) + dc < 0 → g.width ≤ c')) →
      ((0 ≤ (r : Int) + dr → (r : Int) + dr = r') ∧ ((r : Int) + dr < 0 → g.height ≤ r')) →
      IsNeighbour g.width g.height c r dc dr (g.maybeAt c' r') := by
    intro dc dr c' r' _ _ _ _ ⟨h1, h2⟩ ⟨h3, h4⟩
    refine ⟨fun cc rr e1 e2 l1 l2 => ?_, fun hout => ?_⟩
    · have : cc = c' := by have := h1 (by omega); omega
      have : rr = r' := by have := h3 (by omega); omega
      subst cc; subst rr
      rw [Grid.maybeAt, if_pos ⟨l1, l2⟩, Grid.slot_eq hs l1 l2]
    · rw [Grid.maybeAt, if_neg]
      omega
  have m1 : ((0 ≤ (c : Int) + -1 → (c : Int) + -1 = minusOne c) ∧ ((c : Int) + -1 < 0 → g.width ≤ minusOne c)) := by
    rcases Nat.eq_zero_or_pos c with rfl | h0
    · rw [minusOne_zero]; omega
    · rw [minusOne_pos h0 (by omega)]; omega
  have m2 : ((0 ≤ (r : Int) + -1 → (r : Int) + -1 = minusOne r) ∧ ((r : Int) + -1 < 0 → g.height ≤ minusOne r)) := by
    rcases Nat.eq_zero_or_pos r with rfl | h0
    · rw [minusOne_zero]; omega
    · rw [minusOne_pos h0 (by omega)]; omega
  have e : (c + 1) % 2 ^ 32 = c + 1 := Nat.mod_eq_of_lt (by omega)
  exact ⟨rfl, rfl, rfl, rfl, key _ _ _ _ (by omega) (by omega) (by omega) (by omega) m1 (by omega),
    key _ _ _ _ (by omega) (by omega) (by omega) (by omega) m1 m2,
    key _ _ _ _ (by omega) (by omega) (by omega) (by omega) (by omega) m2,
    by show IsNeighbour _ _ _ _ _ _ (g.maybeAt ((c + 1) % 2 ^ 32) (minusOne r)); rw [e]
       exact key _ _ _ _ (by omega) (by omega) (by omega) (by omega) (by omega) m2⟩

/-- Every neighbour a cell is told of has been built before it. -/
theorem neighbour_before {w h c r : Nat} {ctx : Context} (hx : ctx.Exact w h c r) (hr : r < h) (s : Nat)
    (hs : ctx.left = some s ∨ ctx.aboveLeft = some s ∨ ctx.above = some s ∨ ctx.aboveRight = some s) : s < r * w + c := by
  have key : ∀ (dc dr : Int) (o : Option Nat), IsNeighbour w h c r dc dr o → (dr = 0 ∧ dc = -1 ∨ dr = -1 ∧ -1 ≤ dc ∧ dc ≤ 1) → o = some s → s < r * w + c := by
    intro dc dr o ⟨h1, h2⟩ hd ho
    by_cases hin : (c : Int) + dc < 0 ∨ (w : Int) ≤ c + dc ∨ (r : Int) + dr < 0 ∨ (h : Int) ≤ r + dr
    · rw [h2 hin] at ho; cases ho
    · have := h1 (c + dc).toNat (r + dr).toNat (by omega) (by omega) (by omega) (by omega)
      rw [this] at ho
      injection ho with ho
      rcases hd with ⟨rfl, rfl⟩ | ⟨rfl, hd⟩
      · have : ((r : Int) + 0).toNat = r := by omega
        rw [this] at ho; omega
      · have e : ((r : Int) + -1).toNat = r - 1 := by omega
        rw [e] at ho
        have h3 : r * w = (r - 1) * w + w := by
          obtain ⟨k, rfl⟩ : ∃ k, r = k + 1 := ⟨r - 1, by omega⟩
          rw [Nat.add_sub_cancel, Nat.add_mul, Nat.one_mul]
        have h4 : ((c : Int) + dc).toNat < w := by omega
        by_cases hh : ((c : Int) + dc).toNat < w + c
        · omega
        · omega
  rcases hs with hs | hs | hs | hs
  · exact key _ _ _ hx.left (.inl ⟨rfl, rfl⟩) hs
  · exact key _ _ _ hx.aboveLeft (.inr ⟨rfl, by omega, by omega⟩) hs
  · exact key _ _ _ hx.above (.inr ⟨rfl, by omega, by omega⟩) hs
  · exact key _ _ _ hx.aboveRight (.inr ⟨rfl, by omega, by omega⟩) hs

/-- What is known about a buffer under construction. -/
structure Built (make : Context → List T → Option T) (w h n : Nat) (g : Grid T) : Prop where
  width : g.width = w
  height : g.height = h
  length : g.cells.length = n
  made : ∀ k x, g.cells[k]? = some x → ∃ ctx : Context, ctx.Exact w h (k % w) (k / w) ∧ make ctx (g.cells.take k) = some x

theorem buildRow_built {make : Context → List T → Option T} {w h : Nat} (hw : 0 < w) (hh : 0 < h) (hs : w * h < 2 ^ 32) {row : Nat} (hr : row < h) :
    ∀ (n column : Nat) (g g' : Grid T), column + n = w → Built make w h (row * w + column) g → g.buildRow make row n column = some g' →
      Built make w h (row * w + w) g'
  | 0, column, g, g', hn, hb, he => by
    rw [Grid.buildRow] at he
    injection he with he; subst he
    have : column = w := by omega
    subst this; exact hb
  | n + 1, column, g, g', hn, hb, he => by
    rw [Grid.buildRow] at he
    cases hm : make (g.context column row) g.cells with
    | none => rw [hm] at he; cases he
    | some x =>
      rw [hm] at he
      have hcw : column < w := by omega
      refine buildRow_built hw hh hs hr n (column + 1) { g with cells := g.cells ++ [x] } g' (by omega) ⟨hb.width, hb.height, ?_, ?_⟩ he
      · show (g.cells ++ [x]).length = _
        rw [List.length_append, hb.length]; rfl
      · intro k y hk
        have hk : (g.cells ++ [x])[k]? = some y := hk
        have hlen := hb.length
        show ∃ ctx : Context, _ ∧ make ctx ((g.cells ++ [x]).take k) = some y
        rcases Nat.lt_trichotomy k g.cells.length with hlt | heq | hgt
        · rw [List.getElem?_append_left hlt] at hk
          rw [List.take_append_of_le_length (by omega)]
          exact hb.made k y hk
        · subst heq
          rw [List.getElem?_append_right (Nat.le_refl _), Nat.sub_self] at hk
          injection hk with hk; subst hk
          have hE := isNeighbour_maybeAt (g := g) (by rw [hb.width]; exact hw) (by rw [hb.height]; exact hh)
            (by rw [hb.width, hb.height]; exact hs) (c := column) (r := row) (by rw [hb.width]; exact hcw) (by rw [hb.height]; exact hr)
          rw [hb.width, hb.height] at hE
          refine ⟨g.context column row, ?_, ?_⟩
          · rw [hlen, slot_div hcw, slot_mod hcw]; exact hE
          · rw [List.take_append_of_le_length (Nat.le_refl _), List.take_length]; exact hm
        · rw [List.getElem?_eq_none (by rw [List.length_append]; simp; omega)] at hk; cases hk

theorem buildRows_built {make : Context → List T → Option T} {w h : Nat} (hw : 0 < w) (hh : 0 < h) (hs : w * h < 2 ^ 32) :
    ∀ (n row : Nat) (g g' : Grid T), row + n = h → Built make w h (row * w) g → g.buildRows make n row = some g' →
      Built make w h (h * w) g'
  | 0, row, g, g', hn, hb, he => by
    rw [Grid.buildRows] at he
    injection he with he; subst he
    have : row = h := by omega
    subst this; exact hb
  | n + 1, row, g, g', hn, hb, he => by
    rw [Grid.buildRows] at he
    cases hm : g.buildRow make row g.width 0 with
    | none => rw [hm] at he; cases he
    | some g1 =>
      rw [hm] at he
      rw [hb.width] at hm
      have := buildRow_built hw hh hs (row := row) (by omega) w 0 g g1 (by omega) hb hm
      exact buildRows_built hw hh hs n (row + 1) g1 g' (by omega) (by rw [Nat.add_mul, Nat.one_mul]; exact this) he

/-- **C48** (construction): a buffer built cell by cell has all its cells; each was made from the pointers to exactly its
neighbours, and every neighbour it was told of was already there, where it still is. -/
theorem C48_build {make : Context → List T → Option T} {w h : Nat} (hs : w * h < 2 ^ 32) {g : Grid T}
    (hg : Grid.build make w h = some g) :
    g.Full ∧ g.width = w ∧ g.height = h ∧
    ∀ c r x, g.at? c r = some x → ∃ ctx : Context, ctx.Exact w h c r ∧ make ctx (g.cells.take (r * w + c)) = some x ∧
      ∀ s, (ctx.left = some s ∨ ctx.aboveLeft = some s ∨ ctx.above = some s ∨ ctx.aboveRight = some s) →
        (g.cells.take (r * w + c))[s]? = g.cells[s]? ∧ s < g.cells.length := by
  rw [Grid.build] at hg
  split at hg
  · next hpos =>
    obtain ⟨hw, hh⟩ := hpos
    have hb := buildRows_built hw hh hs h 0 _ g (by omega)
      ⟨rfl, rfl, by simp, fun k x hk => by simp at hk⟩ hg
    have hf : g.Full := ⟨by rw [hb.width]; exact hw, by rw [hb.height]; exact hh, by rw [hb.width, hb.height]; exact hs,
      by rw [hb.length, hb.width, hb.height, Nat.mul_comm]⟩
    refine ⟨hf, hb.width, hb.height, fun c r x hx => ?_⟩
    have hin : c < g.width ∧ r < g.height := by rw [← (C48_addressing hf).1, hx]; rfl
    rw [Grid.at?_eq hf hin.1 hin.2] at hx
    injection hx with hx
    have hcw : c < w := hb.width ▸ hin.1
    have hrh : r < h := hb.height ▸ hin.2
    have hlt : r * w + c < g.cells.length := by rw [hb.length, Nat.mul_comm h]; exact slot_lt hcw hrh
    obtain ⟨ctx, h1, h2⟩ := hb.made (r * w + c) x (by rw [List.getElem?_eq_getElem hlt, ← hx]; congr 2; rw [hb.width])
    rw [slot_div hcw, slot_mod hcw] at h1
    refine ⟨ctx, h1, h2, fun s hs => ?_⟩
    have := neighbour_before h1 hrh s hs
    exact ⟨by rw [List.getElem?_take_of_lt this], by omega⟩
  · cases hg

/-- Cells that record which neighbours they were shown. -/
example : (Grid.build (fun ctx _ => some (ctx.left, ctx.aboveLeft, ctx.above, ctx.aboveRight)) 2 2).map (·.cells) =
    some [(none, none, none, none), (some 0, none, none, none), (none, none, some 0, some 1), (some 2, some 0, some 1, none)] := by
  decide

/-- **C48** (visiting): the loops over a buffer visit every cell once, in the order of the slots. -/
theorem C48_visits (w h : Nat) : (visits w h).map (fun p => p.2 * w + p.1) = List.range (w * h) := by
  unfold visits
  induction h with
  | zero => rfl
  | succ h ih =>
    rw [List.range_succ, List.flatMap_append, List.map_append, ih, Nat.mul_succ, List.range_add]
    congr 1
    simp [List.map_map, Function.comp_def, Nat.mul_comm]

/-- **C48** (comparison): comparing two finished buffers never fails, and says whether they have the same size and the same
cells. -/
theorem C48_equals [DecidableEq T] {a b : Grid T} (ha : a.Full) (hb : b.Full) : a.equals b = some (decide (a = b)) := by
  rw [Grid.equals]
  split
  · next hne =>
    congr 1; symm; rw [decide_eq_false_iff_not]; rintro rfl; simp at hne
  · next he =>
    rw [not_or, not_not, not_not] at he
    obtain ⟨hw, hh⟩ := he
    have hall : ∀ (l : List (Nat × Nat)) (s : Bool), (∀ p ∈ l, p.1 < a.width ∧ p.2 < a.height) →
        l.foldl (fun same p => do
          let same ← same
          if same then
            let x ← a.at? p.1 p.2
            let y ← b.at? p.1 p.2
            pure (decide (x = y))
          else pure false) (some s) = some (s && decide (∀ p ∈ l, a.at? p.1 p.2 = b.at? p.1 p.2)) := by
      intro l
      induction l with
      | nil => intro s _; simp
      | cons p l ih =>
        intro s hp
        have hp1 := hp p (by simp)
        rw [List.foldl_cons]
        have hx := Grid.at?_eq ha hp1.1 hp1.2
        have hy := Grid.at?_eq hb (hw ▸ hp1.1) (hh ▸ hp1.2)
        cases s with
        | false =>
          have := ih false (fun q hq => hp q (by simp [hq]))
          simpa using this
        | true =>
          rw [hx, hy]
          have := ih (decide (a.cells[p.2 * a.width + p.1]'(by rw [ha.cells]; exact slot_lt hp1.1 hp1.2) =
            b.cells[p.2 * b.width + p.1]'(by rw [hb.cells]; exact slot_lt (hw ▸ hp1.1) (hh ▸ hp1.2)))) (fun q hq => hp q (by simp [hq]))
          refine Eq.trans this ?_
          congr 1
          rw [Bool.true_and, ← Bool.decide_and]
          exact decide_eq_decide.2 (by rw [List.forall_mem_cons, hx, hy]; simp)
    have hmem : ∀ p, p ∈ visits a.width a.height ↔ p.1 < a.width ∧ p.2 < a.height := by
      rintro ⟨c, r⟩; simp [visits]; tauto
    rw [hall _ _ (fun p hp => (hmem p).1 hp)]
    congr 1
    rw [Bool.true_and]
    congr 1
    rw [eq_iff_iff]
    constructor
    · intro h
      refine Grid.ext hw hh (List.ext_getElem (by rw [ha.cells, hb.cells, hw, hh]) fun k h1 h2 => ?_)
      obtain ⟨c, r, hc, hr, hk⟩ := (C48_addressing ha).2.2.2 k h1
      rw [Grid.slot_eq ha.small hc hr] at hk
      have := h (c, r) ((hmem _).2 ⟨hc, hr⟩)
      rw [Grid.at?_eq ha hc hr, Grid.at?_eq hb (hw ▸ hc) (hh ▸ hr)] at this
      injection this with this
      subst hk
      rw [this]; congr 2; rw [hw]
    · rintro rfl _ _; rfl

/-- **C48** (copying): a copy of a buffer of the same size is equal to it. -/
theorem C48_copy {g other : Grid T} (h : g.width = other.width ∧ g.height = other.height) : g.copyFrom other = some other := by
  rw [Grid.copyFrom, if_pos h, h.1, h.2]

/-! ### The macroblocks of a frame -/

/-- **C48** (frames): the neighbours that the frame model gives a macroblock are the cells at the slots of its context. -/
theorem C48_macroblock_neighbours (g : Grid T) (hw : 0 < g.width) (hh : 0 < g.height) (hs : g.width * g.height < 2 ^ 32) {k : Nat}
    (hk : k < g.width * g.height) :
    gridLeft g.width g.cells k = (g.context (k % g.width) (k / g.width)).left.bind (g.cells[·]?) ∧
    gridAbove g.width g.cells k = (g.context (k % g.width) (k / g.width)).above.bind (g.cells[·]?) ∧
    gridAboveLeft g.width g.cells k = (g.context (k % g.width) (k / g.width)).aboveLeft.bind (g.cells[·]?) := by
  have hc : k % g.width < g.width := Nat.mod_lt _ hw
  have hr : k / g.width < g.height := Nat.div_lt_of_lt_mul hk
  have hx := isNeighbour_maybeAt hw hh hs hc hr
  have hdm := Nat.div_add_mod k g.width
  have hm : ∀ q, q * g.width = g.width * q := fun q => Nat.mul_comm _ _
  unfold gridLeft gridAbove gridAboveLeft
  generalize k / g.width = q at *
  generalize k % g.width = m at *
  refine ⟨?_, ?_, ?_⟩
  · split
    · next h0 => rw [hx.left.2 (.inl (by rw [h0]; decide))]; rfl
    · next h0 =>
      rw [hx.left.1 (m - 1) q (by omega) (by omega) (by omega) hr]
      show _ = g.cells[_]?
      congr 1; rw [hm]; omega
  · split
    · next h0 => rw [hx.above.2 (.inr (.inr (.inl (by rw [h0]; decide))))]; rfl
    · next h0 =>
      rw [hx.above.1 m (q - 1) (by omega) (by omega) hc (by omega)]
      show _ = g.cells[_]?
      congr 1; rw [Nat.sub_mul, hm, Nat.one_mul]; have : g.width * 1 ≤ g.width * q := Nat.mul_le_mul_left _ (by omega)
      omega
  · split
    · next h0 =>
      rcases h0 with h0 | h0
      · rw [hx.aboveLeft.2 (.inr (.inr (.inl (by rw [h0]; decide))))]; rfl
      · rw [hx.aboveLeft.2 (.inl (by rw [h0]; decide))]; rfl
    · next h0 =>
      rw [hx.aboveLeft.1 (m - 1) (q - 1) (by omega) (by omega) (by omega) (by omega)]
      show _ = g.cells[_]?
      congr 1; rw [Nat.sub_mul, hm, Nat.one_mul]; have : g.width * 1 ≤ g.width * q := Nat.mul_le_mul_left _ (by omega)
      omega

example : gridAbove 3 [1, 2, 3, 4, 5, 6] 4 = some 2 ∧ gridLeft 3 [1, 2, 3, 4, 5, 6] 3 = none ∧ gridAboveLeft 3 [1, 2, 3, 4, 5, 6] 5 = some 2 := by decide

/-- The block at column `x` and row `y` of a frame's grid of luma blocks, four by four of which belong to each macroblock. -/
def lumaBlockAt (mb : Nat → Nat → Fin 16 → T) (x y : Nat) : T := mb (x / 4) (y / 4) ⟨y % 4 * 4 + x % 4, by omega⟩

/-- The same for chroma, two by two. -/
def chromaBlockAt (mb : Nat → Nat → Fin 4 → T) (x y : Nat) : T := mb (x / 2) (y / 2) ⟨y % 2 * 2 + x % 2, by omega⟩

/-- **C48** (blocks): the block that the macroblock model takes as the one above or to the left of a luma block is the adjacent
one of the frame's grid of luma blocks, across macroblock borders, and there is none at the top row and left column. -/
theorem C48_luma_neighbours (mb : Nat → Nat → Fin 16 → T) (c r : Nat) (i : Fin 16) :
    aboveOf (mb c r) (if r = 0 then none else some (mb c (r - 1))) i =
      (if 4 * r + i / 4 = 0 then none else some (lumaBlockAt mb (4 * c + i % 4) (4 * r + i / 4 - 1))) ∧
    leftOf (mb c r) (if c = 0 then none else some (mb (c - 1) r)) i =
      (if 4 * c + i % 4 = 0 then none else some (lumaBlockAt mb (4 * c + i % 4 - 1) (4 * r + i / 4))) := by
  have hi := i.2
  have go : ∀ (x y c' r' : Nat) (j j' : Fin 16), x / 4 = c' → y / 4 = r' → y % 4 * 4 + x % 4 = j.val → lumaBlockAt mb x y = mb c' r' j := by
    rintro x y c' r' j j' rfl rfl h
    unfold lumaBlockAt; congr 1; exact Fin.ext h
  constructor
  · unfold aboveOf
    split
    · next h4 =>
      by_cases h0 : r = 0
      · rw [if_pos h0, if_pos (by omega)]; rfl
      · rw [if_neg h0, if_neg (by omega), go _ _ c (r - 1) ⟨i.val + 12, by omega⟩ i (by omega) (by omega) (by show _ = i.val + 12; omega)]
        rfl
    · next h4 =>
      rw [if_neg (by omega), go _ _ c r ⟨i.val - 4, by omega⟩ i (by omega) (by omega) (by show _ = i.val - 4; omega)]
  · unfold leftOf
    split
    · next h4 =>
      by_cases h0 : c = 0
      · rw [if_pos h0, if_pos (by omega)]; rfl
      · rw [if_neg h0, if_neg (by omega), go _ _ (c - 1) r ⟨i.val + 3, by omega⟩ i (by omega) (by omega) (by show _ = i.val + 3; omega)]
        rfl
    · next h4 =>
      rw [if_neg (by omega), go _ _ c r ⟨i.val - 1, by omega⟩ i (by omega) (by omega) (by show _ = i.val - 1; omega)]

/-- The flags of the blocks above and to the left of chroma block `i` of macroblock `c`, `r`. -/
def chromaAbove (mb : Nat → Nat → Fin 4 → Block) (c r : Nat) (i : Fin 4) : Option Bool :=
  if 2 * r + i / 2 = 0 then none else some (chromaBlockAt mb (2 * c + i % 2) (2 * r + i / 2 - 1)).hasNonzero
@[inherit_doc chromaAbove]
def chromaLeft (mb : Nat → Nat → Fin 4 → Block) (c r : Nat) (i : Fin 4) : Option Bool :=
  if 2 * c + i % 2 = 0 then none else some (chromaBlockAt mb (2 * c + i % 2 - 1) (2 * r + i / 2)).hasNonzero

theorem Parser.bind_some {A B : Type} {p : Parser A} {f : A → Parser B} {d : BoolDecoder} {r : B × BoolDecoder}
    (h : (p >>= f) d = some r) : ∃ a d', p d = some (a, d') ∧ f a d' = some r := by
  have h : (p d).bind (fun q => f q.1 q.2) = some r := h
  cases hp : p d with
  | none => rw [hp] at h; cases h
  | some q => exact ⟨q.1, q.2, rfl, by rw [hp] at h; exact h⟩

theorem chromaAbove_eq (mb : Nat → Nat → Fin 4 → Block) (c r : Nat) :
    chromaAbove mb c r 0 = (if r = 0 then none else some (mb c (r - 1))).map (fun b => (b 2).hasNonzero) ∧
    chromaAbove mb c r 1 = (if r = 0 then none else some (mb c (r - 1))).map (fun b => (b 3).hasNonzero) ∧
    chromaAbove mb c r 2 = some (mb c r 0).hasNonzero ∧ chromaAbove mb c r 3 = some (mb c r 1).hasNonzero := by
  have go : ∀ (x y c' r' : Nat) (j : Fin 4), x / 2 = c' → y / 2 = r' → y % 2 * 2 + x % 2 = j.val → chromaBlockAt mb x y = mb c' r' j := by
    rintro x y c' r' j rfl rfl h
    unfold chromaBlockAt; congr 1; exact Fin.ext h
  unfold chromaAbove
  simp only [Fin.isValue, Fin.val_zero, Fin.val_one, Fin.val_two, show ((3 : Fin 4) : Nat) = 3 from rfl]
  refine ⟨?_, ?_, ?_, ?_⟩
  · by_cases h0 : r = 0
    · rw [if_pos h0, if_pos (by omega)]; rfl
    · rw [if_neg h0, if_neg (by omega), go _ _ c (r - 1) 2 (by omega) (by omega) (by show _ = 2; omega)]; rfl
  · by_cases h0 : r = 0
    · rw [if_pos h0, if_pos (by omega)]; rfl
    · rw [if_neg h0, if_neg (by omega), go _ _ c (r - 1) 3 (by omega) (by omega) (by show _ = 3; omega)]; rfl
  · rw [if_neg (by omega), go _ _ c r 0 (by omega) (by omega) (by show _ = 0; omega)]
  · rw [if_neg (by omega), go _ _ c r 1 (by omega) (by omega) (by show _ = 1; omega)]

theorem chromaLeft_eq (mb : Nat → Nat → Fin 4 → Block) (c r : Nat) :
    chromaLeft mb c r 0 = (if c = 0 then none else some (mb (c - 1) r)).map (fun b => (b 1).hasNonzero) ∧
    chromaLeft mb c r 1 = some (mb c r 0).hasNonzero ∧
    chromaLeft mb c r 2 = (if c = 0 then none else some (mb (c - 1) r)).map (fun b => (b 3).hasNonzero) ∧
    chromaLeft mb c r 3 = some (mb c r 2).hasNonzero := by
  have go : ∀ (x y c' r' : Nat) (j : Fin 4), x / 2 = c' → y / 2 = r' → y % 2 * 2 + x % 2 = j.val → chromaBlockAt mb x y = mb c' r' j := by
    rintro x y c' r' j rfl rfl h
    unfold chromaBlockAt; congr 1; exact Fin.ext h
  unfold chromaLeft
  simp only [Fin.isValue, Fin.val_zero, Fin.val_one, Fin.val_two, show ((3 : Fin 4) : Nat) = 3 from rfl]
  refine ⟨?_, ?_, ?_, ?_⟩
  · by_cases h0 : c = 0
    · rw [if_pos h0, if_pos (by omega)]; rfl
    · rw [if_neg h0, if_neg (by omega), go _ _ (c - 1) r 1 (by omega) (by omega) (by show _ = 1; omega)]; rfl
  · rw [if_neg (by omega), go _ _ c r 0 (by omega) (by omega) (by show _ = 0; omega)]
  · by_cases h0 : c = 0
    · rw [if_pos h0, if_pos (by omega)]; rfl
    · rw [if_neg h0, if_neg (by omega), go _ _ (c - 1) r 3 (by omega) (by omega) (by show _ = 3; omega)]; rfl
  · rw [if_neg (by omega), go _ _ c r 2 (by omega) (by omega) (by show _ = 2; omega)]

/-- **C48** (chroma blocks, reading): the four chroma blocks of a macroblock are parsed one after the other, each with the flags of
the adjacent blocks of the frame's grid of chroma blocks. -/
theorem C48_chroma_neighbours_read (probs : CoeffProbs) (mb : Nat → Nat → Fin 4 → Block) (c r : Nat) (d d' : BoolDecoder)
    (h : parseChroma probs (if r = 0 then none else some (mb c (r - 1))) (if c = 0 then none else some (mb (c - 1) r)) d =
      some (mb c r, d')) :
    ∃ d1 d2 d3, parseTokens probs .uv (chromaAbove mb c r 0) (chromaLeft mb c r 0) {} d = some (mb c r 0, d1) ∧
      parseTokens probs .uv (chromaAbove mb c r 1) (chromaLeft mb c r 1) {} d1 = some (mb c r 1, d2) ∧
      parseTokens probs .uv (chromaAbove mb c r 2) (chromaLeft mb c r 2) {} d2 = some (mb c r 2, d3) ∧
      parseTokens probs .uv (chromaAbove mb c r 3) (chromaLeft mb c r 3) {} d3 = some (mb c r 3, d') := by
  obtain ⟨a0, a1, a2, a3⟩ := chromaAbove_eq mb c r
  obtain ⟨l0, l1, l2, l3⟩ := chromaLeft_eq mb c r
  rw [a0, a1, a2, a3, l0, l1, l2, l3]
  unfold parseChroma at h
  obtain ⟨b0, d1, h0, h⟩ := Parser.bind_some h
  obtain ⟨b1, d2, h1, h⟩ := Parser.bind_some h
  obtain ⟨b2, d3, h2, h⟩ := Parser.bind_some h
  obtain ⟨b3, d4, h3, h⟩ := Parser.bind_some h
  have h : some (![b0, b1, b2, b3], d4) = some (mb c r, d') := h
  injection h with h
  injection h with hm hd
  subst hd
  rw [← hm]
  exact ⟨d1, d2, d3, h0, h1, h2, h3⟩

/-- **C48** (chroma blocks, writing): the same for the writer. -/
theorem C48_chroma_neighbours_write (probs : CoeffProbs) (mb : Nat → Nat → Fin 4 → Block) (c r : Nat) :
    writeChroma probs (if r = 0 then none else some (mb c (r - 1))) (if c = 0 then none else some (mb (c - 1) r)) (mb c r) = (do
      let a0 ← serializeTokens probs .uv (chromaAbove mb c r 0) (chromaLeft mb c r 0) (mb c r 0)
      let a1 ← serializeTokens probs .uv (chromaAbove mb c r 1) (chromaLeft mb c r 1) (mb c r 1)
      let a2 ← serializeTokens probs .uv (chromaAbove mb c r 2) (chromaLeft mb c r 2) (mb c r 2)
      let a3 ← serializeTokens probs .uv (chromaAbove mb c r 3) (chromaLeft mb c r 3) (mb c r 3)
      pure (a0 ++ (a1 ++ (a2 ++ a3)))) := by
  obtain ⟨a0, a1, a2, a3⟩ := chromaAbove_eq mb c r
  obtain ⟨l0, l1, l2, l3⟩ := chromaLeft_eq mb c r
  rw [a0, a1, a2, a3, l0, l1, l2, l3]
  rfl

end Alfalfa
