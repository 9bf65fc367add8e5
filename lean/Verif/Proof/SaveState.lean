import Verif.Model.SaveState
import Verif.Spec.Decoder
import Verif.Proof.DecoderState

namespace Alfalfa

/-- `p` reads exactly `bytes`, whatever follows them, and gives `x`. -/
def Loads {α : Type} (p : Load α) (bytes : List UInt8) (x : α) : Prop := ∀ rest, p (bytes ++ rest) = some (x, rest)

theorem Loads.pure {α : Type} (x : α) : Loads (Pure.pure x) [] x := fun _ => rfl

theorem Loads.bind {α β : Type} {p : Load α} {f : α → Load β} {a b : List UInt8} {x : α} {y : β} (hp : Loads p a x)
    (hf : Loads (f x) b y) : Loads (p >>= f) (a ++ b) y := by
  intro rest
  show (p (a ++ b ++ rest)).bind _ = _
  rw [List.append_assoc, hp]
  exact hf rest

theorem Loads.bind' {α β : Type} {p : Load α} {f : α → Load β} {a b c : List UInt8} {x : α} {y : β} (hp : Loads p a x)
    (hf : Loads (f x) b y) (h : c = a ++ b) : Loads (p >>= f) c y := h ▸ hp.bind hf

theorem loads_byte (b : UInt8) : Loads loadByte [b] b := fun _ => rfl

theorem loads_assert {b : Bool} (h : b = true) : Loads (loadAssert b) [] () := by subst h; exact Loads.pure ()

theorem loads_tag (n : Nat) (h : n < 256) : Loads loadTag [UInt8.ofNat n] n := by
  have h2 : (UInt8.ofNat n).toNat = n := by simp; omega
  refine (loads_byte (UInt8.ofNat n)).bind' (b := []) ?_ rfl
  show Loads (Pure.pure (UInt8.ofNat n).toNat) [] n
  rw [h2]
  exact Loads.pure n

theorem loads_LE : ∀ (n v : Nat), v < 256 ^ n → Loads (loadLE n) (putLE n v) v
  | 0, v, h => by
    have : v = 0 := by simpa using h
    subst this; exact Loads.pure 0
  | n + 1, v, h => by
    have hv : v >>> 8 < 256 ^ n := by
      rw [Nat.shiftRight_eq_div_pow, Nat.div_lt_iff_lt_mul (by decide)]
      rwa [Nat.pow_succ] at h
    refine (loads_byte (UInt8.ofNat (v &&& 255))).bind' ((loads_LE n _ hv).bind (b := []) (x := v >>> 8) ?_) (by rw [List.append_nil]; rfl)
    have e : (v >>> 8) <<< 8 ||| (UInt8.ofNat (v &&& 255)).toNat = v := by
      rw [show (255 : Nat) = 2 ^ 8 - 1 from rfl, Nat.and_two_pow_sub_one_eq_mod]
      rw [show (UInt8.ofNat (v % 2 ^ 8)).toNat = v % 2 ^ 8 from by simp]
      rw [Nat.shiftRight_eq_div_pow, ← Nat.shiftLeft_add_eq_or_of_lt (Nat.mod_lt _ (by decide)), Nat.shiftLeft_eq]
      omega
    show Loads (Pure.pure _) [] v
    rw [e]
    exact Loads.pure v

theorem putLE_length : ∀ (n v : Nat), (putLE n v).length = n
  | 0, _ => rfl
  | n + 1, v => by rw [putLE, List.length_cons, putLE_length]

theorem putLE_mod : ∀ (n v : Nat), putLE n v = putLE n (v % 256 ^ n)
  | 0, _ => rfl
  | n + 1, v => by
    rw [putLE, putLE]
    have e1 : v &&& 0xff = (v % 256 ^ (n + 1)) &&& 0xff := by
      rw [show (0xff : Nat) = 2 ^ 8 - 1 from rfl, Nat.and_two_pow_sub_one_eq_mod, Nat.and_two_pow_sub_one_eq_mod,
        Nat.mod_mod_of_dvd _ (show 2 ^ 8 ∣ 256 ^ (n + 1) from ⟨256 ^ n, by rw [Nat.pow_succ, Nat.mul_comm]; rfl⟩)]
    have e2 : (v % 256 ^ (n + 1)) >>> 8 = (v >>> 8) % 256 ^ n := by
      rw [Nat.shiftRight_eq_div_pow, Nat.shiftRight_eq_div_pow, Nat.pow_succ, Nat.mul_comm, Nat.mod_mul_right_div_self]
    rw [← e1, e2, ← putLE_mod n]

theorem loads_LE_mod (n v : Nat) : Loads (loadLE n) (putLE n v) (v % 256 ^ n) := by
  rw [putLE_mod]
  exact loads_LE n _ (Nat.mod_lt _ (Nat.pos_of_ne_zero (by simp)))

theorem loads_int8 {v : Int} (h : -128 ≤ v ∧ v ≤ 127) : Loads loadInt8 (putInt8 v) v := by
  have h2 : (UInt8.ofNat (v % 256).toNat).toNat = (v % 256).toNat := by simp; omega
  refine (loads_byte (UInt8.ofNat (v % 256).toNat)).bind' (b := []) ?_ rfl
  show Loads (Pure.pure (if (UInt8.ofNat (v % 256).toNat).toNat < 128 then ((UInt8.ofNat (v % 256).toNat).toNat : Int)
    else (UInt8.ofNat (v % 256).toNat).toNat - 256)) [] v
  rw [h2, show (if (v % 256).toNat < 128 then ((v % 256).toNat : Int) else (v % 256).toNat - 256) = v from by split <;> omega]
  exact Loads.pure v

theorem loads_fn {α : Type} {p : Load α} {enc : α → List UInt8} : ∀ (n : Nat) (f : Fin n → α), (∀ i, Loads p (enc (f i)) (f i)) →
    Loads (loadFn p n) (List.ofFn fun i => enc (f i)).flatten f
  | 0, f, _ => by
    have e : f = (fun i => i.elim0) := funext fun i => i.elim0
    rw [e]
    exact Loads.pure _
  | n + 1, f, h => by
    have h2 := loads_fn n (fun i => f i.succ) (fun i => h i.succ)
    refine (h 0).bind' (h2.bind (b := []) (x := fun i => f i.succ) (y := f) ?_) ?_
    · show Loads (Pure.pure (Fin.cons (f 0) fun i => f i.succ)) [] f
      rw [show (Fin.cons (f 0) fun i => f i.succ : Fin (n + 1) → α) = f from Fin.cons_self_tail f]
      exact Loads.pure f
    · rw [List.append_nil, List.ofFn_succ, List.flatten_cons]

theorem flatten_singletons {α β : Type} (g : α → β) (l : List α) : (l.map fun x => [g x]).flatten = l.map g := by
  induction l with
  | nil => rfl
  | cons a l ih => simp [ih]

theorem loads_bytes (n : Nat) (f : Fin n → UInt8) : Loads (loadFn loadByte n) (List.ofFn f) f := by
  have := loads_fn (p := loadByte) (enc := fun b => [b]) n f (fun i => loads_byte _)
  rwa [show (List.ofFn fun i => [f i]).flatten = List.ofFn f from by
    rw [show (List.ofFn fun i => [f i]) = (List.ofFn f).map (fun x => [x]) from by rw [List.map_ofFn]; rfl, flatten_singletons, List.map_id']] at this

theorem loads_list {α : Type} {p : Load α} {enc : α → List UInt8} : ∀ (l : List α), (∀ a ∈ l, Loads p (enc a) a) →
    Loads (loadList p l.length) (l.map enc).flatten l
  | [], _ => Loads.pure _
  | a :: l, h => by
    have h2 := loads_list l (fun b hb => h b (List.mem_cons_of_mem _ hb))
    refine (h a List.mem_cons_self).bind' (h2.bind (b := []) (y := a :: l) (Loads.pure _)) ?_
    rw [List.append_nil, List.map_cons, List.flatten_cons]

theorem loads_byteList (l : List UInt8) : Loads (loadList loadByte l.length) l l := by
  have := loads_list (p := loadByte) (enc := fun b => [b]) l (fun a _ => loads_byte a)
  rwa [flatten_singletons, List.map_id'] at this

theorem saveSection_length (tag len : Nat) (p : List UInt8) : (saveSection tag len p).length = 5 + p.length := by
  rw [saveSection, List.length_cons, List.length_append, putLE_length]; omega

theorem flatten_length {n k : Nat} {α : Type} (f : Fin n → List α) (h : ∀ i, (f i).length = k) : (List.ofFn f).flatten.length = n * k := by
  induction n with
  | zero => simp
  | succ n ih =>
    rw [List.ofFn_succ, List.flatten_cons, List.length_append, h, ih _ (fun i => h i.succ), Nat.succ_mul]; omega

theorem saveTables_length (t : ProbabilityTables) : (saveTables t).length = tablesLen + 5 := by
  rw [saveTables, saveSection_length]
  simp only [List.length_append, List.length_ofFn]
  rw [flatten_length (k := 8 * (3 * 11)) _ (fun i => flatten_length (k := 3 * 11) _ (fun j => flatten_length (k := 11) _ (fun k => List.length_ofFn))),
    flatten_length (k := 19) _ (fun i => List.length_ofFn)]
  rfl

theorem putInt8s_length {n : Nat} (f : Fin n → Int) : (List.ofFn fun i => putInt8 (f i)).flatten.length = n := by
  rw [flatten_length (k := 1) _ (fun i => rfl), Nat.mul_one]

theorem loads_table2 {m n : Nat} (c : Fin m → Fin n → UInt8) : Loads (loadFn (loadFn loadByte n) m) (List.ofFn fun i => List.ofFn (c i)).flatten c :=
  loads_fn (enc := fun f => List.ofFn f) m c fun i => loads_bytes n (c i)

theorem loads_table3 {l m n : Nat} (c : Fin l → Fin m → Fin n → UInt8) : Loads (loadFn (loadFn (loadFn loadByte n) m) l)
    (List.ofFn fun i => (List.ofFn fun j => List.ofFn (c i j)).flatten).flatten c :=
  loads_fn (enc := fun f => (List.ofFn fun j => List.ofFn (f j)).flatten) l c fun i => loads_table2 (c i)

theorem loads_table4 {k l m n : Nat} (c : Fin k → Fin l → Fin m → Fin n → UInt8) : Loads (loadFn (loadFn (loadFn (loadFn loadByte n) m) l) k)
    (List.ofFn fun h => (List.ofFn fun i => (List.ofFn fun j => List.ofFn (c h i j)).flatten).flatten).flatten c :=
  loads_fn (enc := fun f => (List.ofFn fun i => (List.ofFn fun j => List.ofFn (f i j)).flatten).flatten) k c fun h => loads_table3 (c h)

theorem loads_tables (t : ProbabilityTables) : Loads loadTables (saveTables t) t := by
  unfold loadTables saveTables saveSection
  refine (loads_tag _ (by decide)).bind' (c := UInt8.ofNat TAG_PROB_TABLE :: _) ?_ (List.singleton_append).symm
  refine (loads_assert (by decide)).bind' ?_ (List.nil_append _).symm
  refine (loads_LE 4 tablesLen (by decide)).bind ?_
  refine (loads_assert (by decide)).bind' ?_ (List.nil_append _).symm
  refine Loads.bind (loads_table4 t.coeffProbs) ?_
  refine (loads_bytes 4 t.yModeProbs).bind ?_
  refine (loads_bytes 3 t.uvModeProbs).bind ?_
  exact Loads.bind' (loads_table2 t.mvProbs) (Loads.pure _) (List.append_nil _).symm

theorem loads_filter {a : FilterAdjustments} (h : a.Ok) : Loads loadFilter (saveFilter a) a := by
  unfold loadFilter saveFilter saveSection
  refine (loads_tag _ (by decide)).bind' (c := UInt8.ofNat TAG_FILT_ADJ :: _) ?_ (List.singleton_append).symm
  refine (loads_assert (by decide)).bind' ?_ (List.nil_append _).symm
  refine (loads_LE 4 8 (by decide)).bind ?_
  refine (loads_assert (by decide)).bind' ?_ (List.nil_append _).symm
  refine Loads.bind (x := a.ref) (loads_fn 4 _ fun i => loads_int8 ⟨by have := h.ref i; omega, by have := h.ref i; omega⟩) ?_
  exact Loads.bind' (x := a.mode) (loads_fn 4 _ fun i => loads_int8 ⟨by have := h.mode i; omega, by have := h.mode i; omega⟩)
    (Loads.pure _) (List.append_nil _).symm

theorem loads_segmentation {w h : Nat} {s : Segmentation} (hw : w < 2 ^ 14) (hh : h < 2 ^ 14) (hs : s.Ok w h) :
    Loads loadSegmentation (saveSegmentation s) s := by
  have b1 : s.mapWidth < 256 ^ 2 := by rw [hs.mapWidth]; omega
  have b2 : s.mapHeight < 256 ^ 2 := by rw [hs.mapHeight]; omega
  unfold loadSegmentation saveSegmentation saveSection
  refine (loads_tag (if s.absolute then TAG_SEGM_ABS else TAG_SEGM_REL) (by split <;> decide)).bind'
    (c := UInt8.ofNat (if s.absolute then TAG_SEGM_ABS else TAG_SEGM_REL) :: _) ?_ (List.singleton_append).symm
  refine (loads_assert (by cases s.absolute <;> decide)).bind' ?_ (List.nil_append _).symm
  refine (loads_LE_mod 4 (segmentationLen s)).bind ?_
  refine (loads_LE 2 _ b1).bind ?_
  refine (loads_LE 2 _ b2).bind ?_
  refine (loads_assert (by rw [segmentationLen]; exact decide_eq_true rfl)).bind' ?_ (List.nil_append _).symm
  refine Loads.bind (x := s.quantizer) (loads_fn 4 _ fun i => loads_int8 ⟨by have := hs.quantizer i; omega, by have := hs.quantizer i; omega⟩) ?_
  refine Loads.bind (x := s.filter) (loads_fn 4 _ fun i => loads_int8 ⟨by have := hs.filter i; omega, by have := hs.filter i; omega⟩) ?_
  have hmap := loads_list (p := do pure (← loadByte).toNat) (enc := fun v => [UInt8.ofNat v]) s.map (fun v hv => by
    exact loads_tag v (by have := hs.cells v hv; omega))
  rw [flatten_singletons, show s.map.length = s.mapWidth * s.mapHeight from by rw [hs.size, hs.mapWidth, hs.mapHeight]] at hmap
  refine Loads.bind' (b := []) hmap ?_ (List.append_nil _).symm
  have e : (decide ((if s.absolute then TAG_SEGM_ABS else TAG_SEGM_REL) = TAG_SEGM_ABS)) = s.absolute := by
    cases s.absolute <;> decide
  show Loads (Pure.pure _) [] s
  rw [e]
  exact Loads.pure s

theorem loads_option {α : Type} {p : Load α} {enc : α → List UInt8} {o : Option α} (h : ∀ a, o = some a → Loads p (enc a) a) :
    Loads (loadOption p) (saveOption enc o) o := by
  cases o with
  | none => exact (loads_tag 5 (by decide)).bind (b := []) (Loads.pure _)
  | some a =>
    refine (loads_tag 6 (by decide)).bind' (b := enc a) ?_ rfl
    rw [if_pos rfl]
    exact (h a rfl).bind' (Loads.pure _) (List.append_nil _).symm

theorem loads_remaining {α : Type} {f : Nat → Load α} {bytes : List UInt8} {x : α} {rest : List UInt8}
    (h : f (bytes ++ rest).length (bytes ++ rest) = some (x, rest)) : (loadRemaining >>= f) (bytes ++ rest) = some (x, rest) := h

theorem loads_fits {α : Type} {n : Nat} {p : Load α} {bytes : List UInt8} {x : α} (hn : n ≤ bytes.length) (h : Loads p bytes x) :
    Loads (do loadAssert (n ≤ (← loadRemaining)); p) bytes x := by
  intro rest
  have e : decide (n ≤ (bytes ++ rest).length) = true := by
    rw [List.length_append]; exact decide_eq_true (by omega)
  show (loadAssert (decide (n ≤ (bytes ++ rest).length)) (bytes ++ rest)).bind _ = _
  rw [e]
  exact h rest

theorem saveSegmentation_length {w h : Nat} {s : Segmentation} (hs : s.Ok w h) : (saveSegmentation s).length = segmentationLen s + 5 := by
  rw [saveSegmentation, saveSection_length, segmentationLen]
  simp only [List.length_append, putLE_length, putInt8s_length, List.length_map]
  rw [hs.size, hs.mapWidth, hs.mapHeight]; omega

theorem saveFilter_length (a : FilterAdjustments) : (saveFilter a).length = 4 + 4 + 5 := by
  rw [saveFilter, saveSection_length]
  simp only [List.length_append, putInt8s_length]

theorem saveState_length {st : DecoderState} (h : st.Ok) : (saveState st).length = stateLen st + 5 := by
  rw [saveState, saveSection_length, stateLen]
  simp only [List.length_append, putLE_length, saveTables_length]
  have e1 : (saveOption saveSegmentation st.segmentation).length =
      (st.segmentation.map (segmentationLen · + 5)).getD 0 + 1 := by
    cases hs : st.segmentation with
    | none => rfl
    | some s => simp only [saveOption, List.length_cons, Option.map_some, Option.getD_some]; rw [saveSegmentation_length (h.segmentation s hs)]
  have e2 : (saveOption saveFilter st.filterAdjustments).length = (st.filterAdjustments.map fun _ => 4 + 4 + 5).getD 0 + 1 := by
    cases hs : st.filterAdjustments with
    | none => rfl
    | some s => simp only [saveOption, List.length_cons, Option.map_some, Option.getD_some]; rw [saveFilter_length]
  rw [e1, e2]; omega

theorem stateLen_lt {st : DecoderState} (h : st.Ok) : stateLen st < 2 ^ 29 := by
  unfold stateLen
  have e2 : (st.filterAdjustments.map fun _ => 4 + 4 + 5).getD 0 ≤ 13 := by
    cases st.filterAdjustments <;> simp
  have e1 : (st.segmentation.map (segmentationLen · + 5)).getD 0 ≤ 2 ^ 28 + 17 := by
    cases hs : st.segmentation with
    | none => simp
    | some s =>
      simp only [segmentationLen, Option.map_some, Option.getD_some]
      rw [(h.segmentation s hs).mapWidth, (h.segmentation s hs).mapHeight]
      have := Nat.mul_le_mul (Nat.le_of_lt h.width.2) (Nat.le_of_lt h.height.2)
      omega
  have : tablesLen = 1101 := rfl
  omega

theorem loads_state {st : DecoderState} (h : st.Ok) : Loads loadState (saveState st) st := by
  have hl := saveState_length h
  have h28 := stateLen_lt h
  have hw := h.width; have hh := h.height
  rw [saveState, saveSection_length] at hl
  unfold loadState saveState saveSection
  refine (loads_tag _ (by decide)).bind' (c := UInt8.ofNat TAG_DECODER_STATE :: _) ?_ (List.singleton_append).symm
  refine (loads_assert (by decide)).bind' ?_ (List.nil_append _).symm
  refine (loads_LE 4 _ (by omega)).bind ?_
  refine loads_fits (by omega) ?_
  refine (loads_LE 2 _ (by omega)).bind ?_
  refine (loads_LE 2 _ (by omega)).bind ?_
  refine (loads_tables _).bind ?_
  refine Loads.bind (loads_option fun s hs => loads_segmentation h.width.2 h.height.2 (h.segmentation s hs)) ?_
  exact Loads.bind' (loads_option fun a ha => loads_filter (h.filterAdjustments a ha)) (Loads.pure _) (List.append_nil _).symm

theorem saveRaster_length {w h : Nat} {r : Raster} {tag : Nat} (hr : r.Ok w h) : (saveRaster r tag).length = rasterLen r.y.width r.y.height + 5 := by
  have a1 : ((w + 15) / 16 * 16) / 2 = (w + 15) / 16 * 8 := by omega
  have a2 : ((h + 15) / 16 * 16) / 2 = (h + 15) / 16 * 8 := by omega
  rw [saveRaster, saveSection_length, rasterLen]
  simp only [List.length_append]
  rw [hr.y, hr.u, hr.v, hr.uWidth, hr.uHeight, hr.vWidth, hr.vHeight, hr.yWidth, hr.yHeight, a1, a2, Nat.mul_assoc 2]
  omega

theorem loads_raster {w h : Nat} {r blank : Raster} (hr : r.Ok w h) : Loads (loadRaster blank TAG_REF_LAST w h) (saveRaster r TAG_REF_LAST) r := by
  have a1 : ((w + 15) / 16 * 16) / 2 = (w + 15) / 16 * 8 := by omega
  have a2 : ((h + 15) / 16 * 16) / 2 = (h + 15) / 16 * 8 := by omega
  have b1 : 16 * macroblockDimension w = r.y.width := by rw [hr.yWidth, macroblockDimension, Nat.mul_comm]
  have b2 : 16 * macroblockDimension h = r.y.height := by rw [hr.yHeight, macroblockDimension, Nat.mul_comm]
  have c1 : r.y.width / 2 = r.u.width := by rw [hr.yWidth, hr.uWidth, a1]
  have c2 : r.y.height / 2 = r.u.height := by rw [hr.yHeight, hr.uHeight, a2]
  have c3 : r.u.width = r.v.width := by rw [hr.uWidth, hr.vWidth]
  have c4 : r.u.height = r.v.height := by rw [hr.uHeight, hr.vHeight]
  have key : Loads (loadTag >>= fun _ => loadLE 4 >>= fun len => loadAssert (decide (len = rasterLen r.y.width r.y.height % 2 ^ 32)) >>= fun _ =>
      loadPixels w h r.y.width r.y.height) (saveRaster r TAG_REF_LAST) r := by
    unfold saveRaster saveSection
    refine (loads_tag 8 (by decide)).bind' (c := UInt8.ofNat TAG_REF_LAST :: _) ?_ (List.singleton_append).symm
    refine (loads_LE_mod 4 _).bind ?_
    refine (loads_assert (decide_eq_true rfl)).bind' ?_ (List.nil_append _).symm
    unfold loadPixels
    rw [c1, c2]
    refine Loads.bind (by rw [← hr.y]; exact loads_byteList _) ?_
    refine Loads.bind (by rw [← hr.u]; exact loads_byteList _) ?_
    refine Loads.bind' (b := []) (by rw [c3, c4, ← hr.v]; exact loads_byteList _) ?_ (List.append_nil _).symm
    have e : ({ displayWidth := w, displayHeight := h, y := ⟨r.y.width, r.y.height, r.y.cells⟩, u := ⟨r.u.width, r.u.height, r.u.cells⟩
                v := ⟨r.u.width, r.u.height, r.v.cells⟩ } : Raster) = r := by
      rw [← hr.displayWidth, ← hr.displayHeight, c3, c4]
      have : (⟨r.u.width, r.u.height, r.u.cells⟩ : Plane) = r.u := rfl
      rw [c3, c4] at this
      rw [this]
    show Loads (Pure.pure _) [] r
    rw [e]
    exact Loads.pure r
  intro rest
  have hk := key rest
  unfold loadRaster
  rw [b1, b2]
  exact hk

theorem saveReferences_length {w h : Nat} {r : References} (hr : r.last.Ok w h) :
    (saveReferences r).length = 4 + (rasterLen r.last.y.width r.last.y.height + 5) + 5 := by
  rw [saveReferences, saveSection_length]
  simp only [List.length_append, putLE_length, saveRaster_length hr]; omega

theorem rasterLen_lt {w h : Nat} {r : Raster} (hw : w < 2 ^ 14) (hh : h < 2 ^ 14) (hr : r.Ok w h) : rasterLen r.y.width r.y.height < 2 ^ 30 := by
  rw [rasterLen, hr.yWidth, hr.yHeight]
  have h1 := Nat.mul_le_mul (show (w + 15) / 16 * 16 ≤ 16384 by omega) (show (h + 15) / 16 * 16 ≤ 16384 by omega)
  have h2 := Nat.mul_le_mul (show (w + 15) / 16 * 16 / 2 ≤ 8192 by omega) (show (h + 15) / 16 * 16 / 2 ≤ 8192 by omega)
  rw [Nat.mul_assoc 2]
  omega

theorem loads_references {w h : Nat} {r : References} {blank : Raster} (hw : w < 2 ^ 14) (hh : h < 2 ^ 14) (hr : r.last.Ok w h) :
    Loads (loadReferences blank) (saveReferences r) ⟨r.last, r.last, r.last⟩ := by
  have hl := saveReferences_length hr
  have hlt := rasterLen_lt hw hh hr
  rw [saveReferences, saveSection_length] at hl
  unfold loadReferences saveReferences saveSection
  refine (loads_tag _ (by decide)).bind' (c := UInt8.ofNat TAG_REFERENCES :: _) ?_ (List.singleton_append).symm
  refine (loads_assert (by decide)).bind' ?_ (List.nil_append _).symm
  refine (loads_LE 4 _ (by omega)).bind ?_
  refine loads_fits (by omega) ?_
  rw [hr.displayWidth, hr.displayHeight]
  refine (loads_LE 2 _ (by omega)).bind ?_
  refine (loads_LE 2 _ (by omega)).bind ?_
  exact Loads.bind' (loads_raster hr) (Loads.pure _) (List.append_nil _).symm

theorem load_save {d : Decoder} (h : d.Ok) (blank : Raster) :
    loadDecoder blank (saveDecoder d) = some ⟨d.state, ⟨d.references.last, d.references.last, d.references.last⟩⟩ := by
  have h1 := saveState_length h.state
  have h2 := saveReferences_length h.references.last
  have h3 := rasterLen_lt h.state.width.2 h.state.height.2 h.references.last
  have h4 := stateLen_lt h.state
  have hlt : (stateLen d.state + 5) + (4 + (rasterLen d.references.last.y.width d.references.last.y.height + 5) + 5) < 256 ^ 4 := by omega
  have k0 := loads_tag TAG_DECODER (by decide) (putLE 4 ((stateLen d.state + 5) +
    (4 + (rasterLen d.references.last.y.width d.references.last.y.height + 5) + 5)) ++ (saveState d.state ++ saveReferences d.references))
  have k1 := loads_LE 4 _ hlt (saveState d.state ++ saveReferences d.references)
  have k2 := loads_state h.state (saveReferences d.references)
  have k3 := loads_references (blank := blank) h.state.width.2 h.state.height.2 h.references.last []
  rw [List.append_nil] at k3
  have k4 : loadDecoderBody blank (saveState d.state ++ saveReferences d.references) =
      some (⟨d.state, ⟨d.references.last, d.references.last, d.references.last⟩⟩, []) := by
    unfold loadDecoderBody
    show (loadState _).bind _ = _
    rw [k2]
    show (loadReferences blank _).bind _ = _
    rw [k3]
    rfl
  unfold loadDecoder saveDecoder saveSection
  rw [List.singleton_append] at k0
  rw [k0, Option.bind_some]
  simp only
  rw [if_neg (fun h => h rfl), k1, Option.bind_some]
  simp only
  rw [if_neg (by rw [List.length_append, h1, h2]; exact fun h => h rfl), k4]
  rfl

end Alfalfa
