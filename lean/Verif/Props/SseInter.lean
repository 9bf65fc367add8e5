import Verif.Proof.SseInter
import Verif.Props.Inter
import Verif.Props.Search
import Verif.Proof.Length

/-! C85, prediction from another picture: the vector filters and the portable ones. -/

namespace Alfalfa
open Sse InterSpec

/-- How many bytes of a line the filter along lines reads for `n` of them. -/
def lineReads (n : Nat) : Nat := if n = 4 then 16 else n + 5

theorem sseHoriz_eq {n : Nat} (hn : n = 4 ∨ n = 8 ∨ n = 16) {load : Int → Option UInt8} {rsi : Int} {i : Fin 8} (hi : i ≠ 0) {x : Nat → UInt8}
    (h : ∀ k : Nat, k < lineReads n → load (rsi - 2 + k) = some (x k)) :
    ∃ r, sseHoriz n load rsi i = some r ∧ ∀ j, j < n → r j = (sixtap (sixtapFilters i) fun k => x (j + k.val)).toBitVec := by
  rcases hn with rfl | rfl | rfl
  · exact h4_eq hi h
  · exact h8_eq hi h
  · exact h16_eq hi h

theorem sseVert_eq {n : Nat} (hn : n = 4 ∨ n = 8 ∨ n = 16) {load : Int → Option UInt8} {rsi pitch : Int} {i : Fin 8} (hi : i ≠ 0) {x : Nat → Nat → UInt8} (h : Lines load rsi pitch n x) :
    ∃ r, sseVert n load rsi pitch i = some r ∧ ∀ j, j < n → r j = (sixtap (sixtapFilters i) fun k => x k.val j).toBitVec := by
  rcases hn with rfl | rfl | rfl
  · exact v4_eq hi h
  · exact v8_eq hi h
  · exact v16_eq hi h

theorem sixtap_zero (x : Fin 6 → UInt8) : sixtap (sixtapFilters 0) x = x 2 := by
  rw [sixtap_eq, show ((0 : Fin 8) : Nat) = 0 from rfl, between_zero, ofNat_toNat]

theorem ofBits (x : UInt8) : (⟨x.toBitVec⟩ : UInt8) = x := rfl

/-- The three cases together are the two passes of the portable code. -/
theorem sseFilters_eq {n : Nat} (hn : n = 4 ∨ n = 8 ∨ n = 16) {load : Int → Option UInt8} {stride src : Int} {mx my : Fin 8} (hm : mx ≠ 0 ∨ my ≠ 0) {e : Int → Int → UInt8}
    (h : ∀ x y : Int, -2 ≤ x → x < lineReads n - 2 → -2 ≤ y → y < n + 3 → (mx = 0 → 0 ≤ x ∧ x < n) → (my = 0 → 0 ≤ y ∧ y < n) → load (src + y * stride + x) = some (e x y)) :
    sseFilters n load stride src mx my = some fun c r => sixtap (sixtapFilters my) fun k => sixtap (sixtapFilters mx) fun j =>
      e ((c.val : Int) + j.val - 2) ((r.val : Int) + k.val - 2) := by
  have hl : n + 5 ≤ lineReads n := by unfold lineReads; split <;> omega
  have hn0 : 0 < n := by omega
  unfold sseFilters
  by_cases hx : mx = 0
  · subst hx
    have hy : my ≠ 0 := by tauto
    rw [if_neg (by simp)]
    have hr : ∀ r : Fin n, ∃ v, sseVert n load (src - 2 * stride + r.val * stride) stride my = some v ∧
        ∀ j, j < n → v j = (sixtap (sixtapFilters my) fun k => e j ((r.val : Int) + k.val - 2)).toBitVec := fun r =>
      sseVert_eq hn hy (x := fun l k => e k ((r.val : Int) + l - 2)) fun l k hl6 hk => by
        have := r.2
        rw [← h k ((r.val : Int) + l - 2) (by omega) (by omega) (by omega) (by omega) (by omega) (fun h => absurd h hy)]
        congr 1; ring
    choose v hv hj using hr
    rw [allSome_some hv]
    refine congrArg some (funext fun c => funext fun r => ?_)
    simp only [hj r c.val c.2, sixtap_zero]
    rw [ofBits]
    congr 1; funext k; congr 1
    show (c.val : Int) = c.val + 2 - 2
    ring
  · rw [if_pos hx]
    by_cases hy : my = 0
    · subst hy
      rw [if_neg (by simp)]
      have hr : ∀ r : Fin n, ∃ v, sseHoriz n load (src + r.val * stride) mx = some v ∧
          ∀ j, j < n → v j = (sixtap (sixtapFilters mx) fun k => (fun m : Nat => e ((m : Int) - 2) r.val) (j + k.val)).toBitVec := fun r =>
        sseHoriz_eq hn hx (x := fun m : Nat => e ((m : Int) - 2) r.val) fun k hk => by
          have := r.2
          rw [← h ((k : Int) - 2) r.val (by omega) (by omega) (by omega) (by omega) (fun h => absurd h hx) (by omega)]
          congr 1; ring
      choose v hv hj using hr
      rw [allSome_some hv]
      refine congrArg some (funext fun c => funext fun r => ?_)
      simp only [hj r c.val c.2, sixtap_zero]
      rw [ofBits]
      congr 1; funext k; congr 1
      show (r.val : Int) = r.val + 2 - 2
      ring
    · rw [if_pos hy]
      have hr : ∀ r : Fin (n + 5), ∃ v, sseHoriz n load (src - 2 * stride + r.val * stride) mx = some v ∧
          ∀ j, j < n → v j = (sixtap (sixtapFilters mx) fun k => (fun m : Nat => e ((m : Int) - 2) ((r.val : Int) - 2)) (j + k.val)).toBitVec := fun r =>
        sseHoriz_eq hn hx (x := fun m : Nat => e ((m : Int) - 2) ((r.val : Int) - 2)) fun k hk => by
          have := r.2
          rw [← h ((k : Int) - 2) ((r.val : Int) - 2) (by omega) (by omega) (by omega) (by omega) (fun h => absurd h hx) (fun h => absurd h hy)]
          congr 1; ring
      choose v hv hj using hr
      rw [allSome_some hv]
      have hr : ∀ r : Fin n, ∃ w, sseVert n (intermediateLoad n v) (r.val * n) n my = some w ∧
          ∀ j, j < n → w j = (sixtap (sixtapFilters my) fun k => sixtap (sixtapFilters mx) fun i => e (((j + i.val : Nat) : Int) - 2) ((r.val : Int) + k.val - 2)).toBitVec := fun r =>
        sseVert_eq hn hy (x := fun l j => sixtap (sixtapFilters mx) fun i => e (((j + i.val : Nat) : Int) - 2) ((r.val : Int) + l - 2)) fun l k hl6 hk => by
          have hrl := r.2
          have e1 : ((r.val * n : Nat) : Int) + n * l + k = ((k + n * (r.val + l) : Nat) : Int) := by push_cast; ring
          have hd : (k + n * (r.val + l)) / n = r.val + l := by rw [Nat.add_mul_div_left _ _ hn0, Nat.div_eq_of_lt hk, Nat.zero_add]
          have hmod : (k + n * (r.val + l)) % n = k := by rw [Nat.add_mul_mod_self_left, Nat.mod_eq_of_lt hk]
          unfold intermediateLoad
          have e2 : (r.val : Int) * n + n * l + k = ((k + n * (r.val + l) : Nat) : Int) := by push_cast; ring
          rw [e2]
          have hc : 0 ≤ ((k + n * (r.val + l) : Nat) : Int) ∧ (((k + n * (r.val + l) : Nat) : Int)).toNat / n < n + 5 := ⟨by omega, by rw [Int.toNat_natCast, hd]; omega⟩
          rw [dif_pos hc]
          simp only [Int.toNat_natCast, hd, hmod, hj _ k hk]
          push_cast
          rfl
      choose w hw hwj using hr
      simp only [Option.bind_eq_bind, Option.bind_some]
      rw [allSome_some hw]
      refine congrArg some (funext fun c => funext fun r => ?_)
      simp only [hwj r c.val c.2]
      rw [ofBits]
      push_cast
      rfl

theorem fraction_eq_zero (v : Int) : fraction v = 0 ↔ v % 8 = 0 := by
  rw [Fin.ext_iff, fraction_val, Fin.val_zero]; omega

/-- The bytes that are read past the end of the picture. -/
def ReadsPastEnd (n : Nat) (p : Plane) (mv : MotionVector) (sc sr : Int) : Prop :=
  n = 4 ∧ mv.x % 8 ≠ 0 ∧ mv.y % 8 ≠ 0 ∧ sr + 7 = p.height ∧ p.width < sc + 14

instance : Decidable (ReadsPastEnd n p mv sc sr) := by unfold ReadsPastEnd; infer_instance

/-- Away from the end of the picture, the vector code computes the picture's values between its pixels. -/
theorem sseInterPredict_eq {p : Plane} (hp : p.Full) {n : Nat} (hn : n = 4 ∨ n = 8 ∨ n = 16) (mv : MotionVector) {sc sr : Int}
    (h1 : 0 ≤ sc - 2) (h2 : sc + n + 3 ≤ p.width) (h3 : 0 ≤ sr - 2) (h4 : sr + n + 3 ≤ p.height) (hr : ¬ ReadsPastEnd n p mv sc sr) :
    sseInterPredict n p p.width mv sc sr = some fun c r =>
      UInt8.ofNat (interpolated p (8 * (sc + c.val) + mv.x % 8) (8 * (sr + r.val) + mv.y % 8)) := by
  by_cases hm : mv.x % 8 = 0 ∧ mv.y % 8 = 0
  · rw [← unsafeInterPredict_eq hp n mv h1 h2 h3 h4]
    unfold sseInterPredict unsafeInterPredict
    simp only [ne_eq, not_true_eq_false, if_false, if_pos hm]
  · unfold sseInterPredict
    rw [if_neg (by simp), if_neg hm, Grid.address_eq hp (by omega) (by omega)]
    simp only [Option.bind_eq_bind, Option.bind_some]
    have ha : (((sr.toNat * p.width + sc.toNat : Nat)) : Int) = sr * p.width + sc := by
      push_cast; rw [Int.toNat_of_nonneg (by omega), Int.toNat_of_nonneg (by omega)]
    rw [ha]
    have hlen := hp.cells
    rw [sseFilters_eq hn (e := fun x y => (p.load (sr * p.width + sc + y * p.width + x)).getD 0) (by rw [ne_eq, ne_eq, fraction_eq_zero, fraction_eq_zero]; tauto) (fun x y hx hx' hy hy' hx0 hy0 => by
      rw [fraction_eq_zero] at hx0 hy0
      have hlt : ∃ v, p.load (sr * p.width + sc + y * p.width + x) = some v := by
        have e1 : sr * p.width + sc + y * p.width + x = (sr + y) * p.width + (sc + x) := by ring
        have hb : (sr + y) * p.width + (sc + x) < p.height * p.width := by
          by_cases hin : sc + x < p.width
          · have : (sr + y + 1) * p.width ≤ p.height * p.width := Int.mul_le_mul_of_nonneg_right (by omega) (by omega)
            have e3 : (sr + y + 1) * (p.width : Int) = (sr + y) * p.width + p.width := by ring
            omega
          · have hn4 : n = 4 := by
              unfold lineReads at hx'
              split at hx' <;> omega
            subst hn4
            simp only [lineReads, if_true] at hx'
            by_cases hlast : sr + y + 1 < p.height
            · have h2' : (sr + y + 2) * p.width ≤ p.height * p.width := Int.mul_le_mul_of_nonneg_right (by omega) (by omega)
              have e3 : (sr + y + 2) * (p.width : Int) = (sr + y) * p.width + p.width + p.width := by ring
              omega
            · exfalso
              apply hr
              by_cases ha : mv.x % 8 = 0
              · have := hx0 ha; omega
              · by_cases hb : mv.y % 8 = 0
                · have := hy0 hb; omega
                · exact ⟨rfl, ha, hb, by omega, by omega⟩
        have hnn : 0 ≤ (sr + y) * (p.width : Int) := Int.mul_nonneg (by omega) (by omega)
        rw [e1, Grid.load, if_pos (by omega)]
        have hl : ((sr + y) * (p.width : Int) + (sc + x)).toNat < p.cells.length := by
          rw [hlen, ← Int.ofNat_lt, Int.toNat_of_nonneg (by omega)]; push_cast; rw [Int.mul_comm (p.width : Int) p.height]; exact hb
        exact ⟨_, List.getElem?_eq_getElem hl⟩
      obtain ⟨v, hv⟩ := hlt
      rw [hv]; rfl)]
    refine congrArg some (funext fun c => funext fun r => ?_)
    have fx : ∀ a b : Int, fraction (8 * a + b % 8) = fraction b := fun a b => Fin.ext (by simp only [fraction_val]; omega)
    have dx : ∀ a b : Int, (8 * a + b % 8) / 8 = a := fun a b => by omega
    rw [interpolated_eq, fx, fx, dx, dx]
    congr 1; funext k; congr 1; funext j
    have := c.2; have := r.2; have := k.2; have := j.2
    have hl := load_extended hp (x := sc + c.val + j.val - 2) (y := sr + r.val + k.val - 2) (i := sr * p.width + sc + ((r.val : Int) + k.val - 2) * p.width + ((c.val : Int) + j.val - 2))
      (by omega) (by omega) (by omega) (by omega) (by ring)
    rw [hl]; rfl

theorem allSome_none {n : Nat} {T : Type} {f : Fin n → Option T} (i : Fin n) (h : f i = none) : allSome f = none := by
  cases hs : allSome f with
  | none => rfl
  | some g => have := allSome_iff.mp hs i; rw [h] at this; cases this

/-- The filter for blocks of four reads sixteen bytes of each line. -/
theorem sseInterPredict_none {p : Plane} (hp : p.Full) {n : Nat} {mv : MotionVector} {sc sr : Int}
    (h1 : 0 ≤ sc - 2) (h2 : sc + n + 3 ≤ p.width) (h3 : 0 ≤ sr - 2) (h4 : sr + n + 3 ≤ p.height) (hr : ReadsPastEnd n p mv sc sr) :
    sseInterPredict n p p.width mv sc sr = none := by
  obtain ⟨rfl, hx, hy, hh, hw⟩ := hr
  have hlen := hp.cells
  unfold sseInterPredict
  rw [if_neg (by simp), if_neg (by tauto), Grid.address_eq hp (by omega) (by omega)]
  simp only [Option.bind_eq_bind, Option.bind_some]
  unfold sseFilters
  rw [if_pos (by rw [ne_eq, fraction_eq_zero]; exact hx), if_pos (by rw [ne_eq, fraction_eq_zero]; exact hy)]
  rw [allSome_none (8 : Fin 9)]
  · rfl
  · show Alfalfa.h4 _ _ _ = none
    unfold Alfalfa.h4 reads
    rw [allSome_none (15 : Fin 16)]
    · rfl
    · have ha : (((sr.toNat * p.width + sc.toNat : Nat)) : Int) = sr * p.width + sc := by
        push_cast; rw [Int.toNat_of_nonneg (by omega), Int.toNat_of_nonneg (by omega)]
      rw [ha]
      have e8 : ((8 : Fin 9).val : Int) = 8 := rfl
      have e15 : ((15 : Fin 16).val : Int) = 15 := rfl
      rw [e8, e15]
      have e1 : sr * (p.width : Int) + sc - 2 * p.width + 8 * p.width - 2 + 15 = (p.height : Int) * p.width - p.width + sc + 13 := by
        rw [← hh]; ring
      rw [e1, Grid.load]
      split
      · refine List.getElem?_eq_none ?_
        rw [hlen, ← Int.ofNat_le, Int.toNat_of_nonneg (by assumption)]
        push_cast
        rw [Int.mul_comm]
        omega
      · rfl

/-- **C85** (prediction from another picture): for every block that lies with the pixels around it that the filter needs within a
full picture, and every vector, the vector code gives the block that the portable code gives, unless it reads past the end of the
picture. -/
theorem C85_inter {p : Plane} (hp : p.Full) {n : Nat} (hn : n = 4 ∨ n = 8 ∨ n = 16) (mv : MotionVector) {sc sr : Int}
    (h1 : 2 ≤ sc) (h2 : sc + n + 3 ≤ p.width) (h3 : 2 ≤ sr) (h4 : sr + n + 3 ≤ p.height) :
    sseInterPredict n p p.width mv sc sr = if ReadsPastEnd n p mv sc sr then none else unsafeInterPredict n p p.width mv sc sr := by
  split
  · next hr => exact sseInterPredict_none hp (by omega) h2 (by omega) h4 hr
  · next hr => rw [sseInterPredict_eq hp hn mv (by omega) h2 (by omega) h4 hr, unsafeInterPredict_eq hp n mv (by omega) h2 (by omega) h4]

/-- **C85** (the blocks that a decoder predicts): a decoder with vector instructions predicts each block of 8 or 16 pixels, wherever it and its vector are, as one without. -/
theorem C85_inter_block {p : Plane} (hp : p.Full) {n : Nat} (hn : n = 8 ∨ n = 16) (mv : MotionVector) (column row : Nat) :
    sseInterSquare n p p.width mv column row = interSquare n p p.width mv column row := by
  unfold sseInterSquare interSquare
  dsimp only
  split
  · rfl
  · next h =>
    rw [C85_inter hp (by omega) mv (by omega) (by omega) (by omega) (by omega), if_neg (by unfold ReadsPastEnd; omega)]

/-- **C85** (blocks of four): for them the same holds if the picture does not end with the last line that the filter reads, or goes on for nine more pixels. -/
theorem C85_inter_four {p : Plane} (hp : p.Full) (mv : MotionVector) (column row : Nat)
    (h : ¬ (((row * 4 : Nat) : Int) + mv.y / 8 + 7 = p.height ∧ p.width < ((column * 4 : Nat) : Int) + mv.x / 8 + 14)) :
    sseInterSquare 4 p p.width mv column row = interSquare 4 p p.width mv column row := by
  unfold sseInterSquare interSquare
  dsimp only
  split
  · rfl
  · next hc =>
    rw [C85_inter hp (by omega) mv (by omega) (by omega) (by omega) (by omega), if_neg (by unfold ReadsPastEnd; simp only [shr3_div]; tauto)]

/-- **C85 does not hold** at the lower right corner: there is a picture and a block within it for which the vector code reads past the end of the picture, while the portable code predicts it. -/
theorem C85_inter_past_end : ∃ (p : Plane) (mv : MotionVector) (column row : Nat), p.Full ∧ sseInterSquare 4 p p.width mv column row = none ∧
    (interSquare 4 p p.width mv column row).isSome := by
  obtain ⟨p, hp, hw, hh⟩ : ∃ p : Plane, p.Full ∧ p.width = 16 ∧ p.height = 16 :=
    ⟨{ width := 16, height := 16, cells := List.replicate 256 7 }, ⟨by decide, by decide, by decide, List.length_replicate⟩, rfl, rfl⟩
  have h : ReadsPastEnd 4 p { x := 9, y := 9 } 9 9 := ⟨rfl, by decide, by decide, by rw [hh]; rfl, by rw [hw]; decide⟩
  refine ⟨p, { x := 9, y := 9 }, 2, 2, hp, ?_, ?_⟩
  · unfold sseInterSquare
    dsimp only
    rw [if_neg (by rw [hw, hh]; decide)]
    exact sseInterPredict_none hp (by decide) (by rw [hw]; decide) (by decide) (by rw [hh]; decide) h
  · unfold interSquare
    dsimp only
    rw [if_neg (by rw [hw, hh]; decide), unsafeInterPredict_eq hp 4 _ (by decide) (by rw [hw]; decide) (by decide) (by rw [hh]; decide)]
    rfl

theorem flatten_get {T : Type} {w : Nat} : ∀ {rows : List (List T)}, (∀ l ∈ rows, l.length = w) → ∀ {x y : Nat}, x < w →
    rows.flatten[y * w + x]? = (rows[y]?).bind (·[x]?)
  | [], _, x, y, _ => by simp
  | l :: rows, h, x, 0, hx => by
    have hl := h l (by simp)
    rw [List.flatten_cons, Nat.zero_mul, Nat.zero_add, List.getElem?_append_left (by omega)]; rfl
  | l :: rows, h, x, y + 1, hx => by
    have hl := h l (by simp)
    rw [List.flatten_cons, List.getElem?_append_right (by rw [hl, Nat.add_mul]; omega), hl, show (y + 1) * w + x - w = y * w + x by rw [Nat.add_mul]; omega,
      flatten_get (fun l hl => h l (by simp [hl])) hx]
    rfl

/-- The padded copy, row after row. -/
theorem paddedMemory {p : Plane} (hp : p.Full) {rows : List (List UInt8)} (hr : safeRaster p = some rows) :
    (rows.headD []).length = p.width + 512 ∧ ∀ x y : Int, -256 ≤ x → x < p.width + 256 → -256 ≤ y → y < p.height + 256 → ∀ i : Int, i = (256 + x) + (256 + y) * (p.width + 512 : Nat) →
      (if 0 ≤ i then rows.flatten[i.toNat]? else none) = some (extended p x y) := by
  obtain ⟨rows', hr', hs⟩ := C35_padded hp
  rw [hr] at hr'
  cases hr'
  have hc : rows.length = p.height + 512 := by rw [length_mapM hr, List.length_range]; rfl
  have hlen : ∀ l ∈ rows, l.length = p.width + 512 := fun l hl => by
    obtain ⟨i, hi, rfl⟩ := List.getElem_of_mem hl
    have h1 := hs (p.width + 255) ((i : Int) - 256)
    have h2 := hs (p.width + 256) ((i : Int) - 256)
    rw [if_pos (by omega)] at h1
    rw [if_neg (by omega)] at h2
    unfold safeAt at h1 h2
    rw [show ((marginWidth : Nat) : Int) = 256 from rfl, if_pos (by omega), show ((256 : Int) + ((i : Int) - 256)).toNat = i by omega, List.getElem?_eq_getElem hi, Option.bind_some] at h1 h2
    have a1 := (List.getElem?_eq_some_iff.mp h1).1
    have a2 := List.getElem?_eq_none_iff.mp h2
    omega
  refine ⟨?_, fun x y h1 h2 h3 h4 i hi => ?_⟩
  · cases rows with
    | nil => simp at hc
    | cons l _ => exact hlen l (by simp)
  · have h := hs x y
    rw [if_pos (by omega)] at h
    unfold safeAt at h
    rw [show ((marginWidth : Nat) : Int) = 256 from rfl, if_pos (by omega)] at h
    have e : i = (((256 + y).toNat * (p.width + 512) + (256 + x).toNat : Nat) : Int) := by
      rw [hi]; push_cast; rw [Int.toNat_of_nonneg (by omega), Int.toNat_of_nonneg (by omega)]; ring
    rw [if_pos (by omega), e, Int.toNat_natCast, flatten_get hlen (by omega)]
    exact h

/-- **C85** (the motion search): within the margin of the padded copy an encoder with vector instructions tries the block that one without tries, which is what the decoder will predict. -/
theorem C85_search {p : Plane} (hp : p.Full) {rows : List (List UInt8)} (hr : safeRaster p = some rows) {mv : MotionVector} {column row : Nat}
    (h : InMargin p mv column row) : sseSafePredict 16 rows mv column row = searchPredict rows mv column row ∧
      sseSafePredict 16 rows mv column row = interSquare 16 p p.width mv column row := by
  have he := searchPredict_eq hp hr h
  rw [he]
  suffices key : sseSafePredict 16 rows mv column row = interSquare 16 p p.width mv column row from ⟨key, key⟩
  · obtain ⟨hw, hm⟩ := paddedMemory hp hr
    obtain ⟨a, b, c, d⟩ := h
    have fx : ∀ a b : Int, fraction (8 * a + b % 8) = fraction b := fun a b => Fin.ext (by simp only [fraction_val]; omega)
    have dx : ∀ a b : Int, (8 * a + b % 8) / 8 = a := fun a b => by omega
    have hi : interSquare 16 p p.width mv column row = some fun c r => UInt8.ofNat (interpolated p (8 * (((column * 16 : Nat) : Int) + mv.x / 8 + c.val) + mv.x % 8) (8 * (((row * 16 : Nat) : Int) + mv.y / 8 + r.val) + mv.y % 8)) := by
      unfold interSquare
      dsimp only
      rw [shr3_div, shr3_div]
      split
      · rw [safeInterPredict_eq hp]
      · next hn => rw [unsafeInterPredict_eq hp 16 mv (by omega) (by omega) (by omega) (by omega)]
    rw [hi]
    unfold sseSafePredict
    dsimp only
    simp only [hw, shr3_div, show ((marginWidth : Nat) : Int) = 256 from rfl]
    generalize ((column * 16 : Nat) : Int) + mv.x / 8 = sc at *
    generalize ((row * 16 : Nat) : Int) + mv.y / 8 = sr at *
    generalize hM : (fun i : Int => if 0 ≤ i then rows.flatten[i.toNat]? else none) = M
    replace hm : ∀ x y : Int, -256 ≤ x → x < p.width + 256 → -256 ≤ y → y < p.height + 256 → ∀ i : Int, i = (256 + x) + (256 + y) * (p.width + 512 : Nat) → M i = some (extended p x y) := by
      rw [← hM]; exact hm
    split
    · next h0 =>
      refine allSome_some fun c => allSome_some fun r => ?_
      have := c.2; have := r.2
      have e := hm (sc + c.val) (sr + r.val) (by omega) (by omega) (by omega) (by omega) (256 + sc + (256 + sr) * (p.width + 512 : Nat) + r.val * (p.width + 512 : Nat) + c.val) (by push_cast; ring)
      rw [← hM] at e
      refine e.trans ?_
      rw [interpolated_whole p (by omega) (by omega), dx, dx, ofNat_toNat]
    · next h0 =>
      refine (sseFilters_eq (by omega) (e := fun x y => extended p (sc + x) (sr + y))
        (by rw [ne_eq, ne_eq, fraction_eq_zero, fraction_eq_zero]; exact not_and_or.mp h0) (fun x y hx hx' hy hy' _ _ => by
          simp only [lineReads] at hx'
          norm_num at hx'
          exact hm _ _ (by omega) (by omega) (by omega) (by omega) _ (by ring))).trans ?_
      refine congrArg some (funext fun c => funext fun r => ?_)
      rw [interpolated_eq, fx, fx, dx, dx]
      exact congrArg (sixtap _) (funext fun k => congrArg (sixtap _) (funext fun j => congrArg₂ (extended p) (by ring) (by ring)))

example : InMargin { width := 32, height := 32, cells := List.replicate 1024 7 } { x := 13, y := -9 } 0 0 := ⟨by decide, by decide, by decide, by decide⟩
example : ∃ p : Plane, p.Full ∧ p.width = 32 ∧ p.height = 32 :=
  ⟨{ width := 32, height := 32, cells := List.replicate 1024 7 }, ⟨by decide, by decide, by decide, List.length_replicate⟩, rfl, rfl⟩

end Alfalfa
