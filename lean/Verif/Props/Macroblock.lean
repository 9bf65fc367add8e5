import Verif.Proof.InterMacroblock
import Verif.Props.Header

/-! Properties of macroblock headers: C08 (round trip), C12 (parsing arbitrary bits) and C50 (motion vector census). -/

namespace Alfalfa

/-- **C08**, key frames.  Every macroblock a key frame can carry is written, and the parser, seeing the same neighbours and
frame header, reads back exactly it: segment id, skip flag, luma mode, the sixteen sub-block modes and the chroma mode. -/
theorem C08_key_macroblock_round_trip (h : KeyFrameHeader) (c : MBContext) (m : MBModes) (hm : m.KeyOk h)
    (ha : ∀ n, c.above = some n → n.IntraOk) (hl : ∀ n, c.left = some n → n.IntraOk) :
    ∃ bits, writeKeyMB h c m = some bits ∧ RoundTrips (parseKeyMB h c) bits m := by
  obtain ⟨bits, h1, h2⟩ := parses_keyMB hm ⟨ha, hl⟩
  exact ⟨bits, h1, h2.roundTrips⟩

/-- **C08**, inter frames.  Every macroblock an inter frame can carry, in any neighbourhood and under any probability
tables, is written, and the parser reads back exactly it: also the reference frame selection, the partition and all motion
vectors. -/
theorem C08_inter_macroblock_round_trip (h : InterFrameHeader) (t : ProbabilityTables) (c : MBContext) (m : MBModes)
    (hm : m.InterFrameOk h c) :
    ∃ bits, writeInterMB h t c m = some bits ∧ RoundTrips (parseInterMB h t c) bits m := by
  obtain ⟨bits, h1, h2⟩ := parses_interMB t hm
  exact ⟨bits, h1, h2.roundTrips⟩

/-- **C12** for macroblocks of key frames: whatever the bits are, parsing does not fail and gives a macroblock the format
can carry. -/
theorem C12_key_macroblock_total (h : KeyFrameHeader) (c : MBContext)
    (ha : ∀ n, c.above = some n → n.IntraOk) (hl : ∀ n, c.left = some n → n.IntraOk) (d : BoolDecoder) :
    ∃ m d', parseKeyMB h c d = some (m, d') ∧ m.KeyOk h :=
  produces_keyMB h ⟨ha, hl⟩ d

/-- **C12** for macroblocks of inter frames. -/
theorem C12_inter_macroblock_total (h : InterFrameHeader) (t : ProbabilityTables) (c : MBContext) (d : BoolDecoder) :
    ∃ m d', parseInterMB h t c d = some (m, d') ∧ m.InterFrameOk h c :=
  produces_interMB h t c d

/-- **C50**, counters: the census never fails, its four mode contexts are below 6, and the table lookups they make
succeed. -/
theorem C50_mode_contexts_in_range (flipped : Bool) (c : MBContext) :
    ∃ s, census flipped c = some s ∧ s.scores 0 < 6 ∧ s.scores 1 < 6 ∧ s.scores 2 < 6 ∧ s.splitScore < 6 ∧
      ∃ p0 p1 p2 p3, mvRefProbs s = some [p0, p1, p2, p3] := by
  obtain ⟨s, h1, h2, h3⟩ := census_bounded flipped c
  refine ⟨s, h1, Nat.lt_succ_of_le (h2 0), Nat.lt_succ_of_le (h2 1), Nat.lt_succ_of_le (h2 2), Nat.lt_succ_of_le h3, ?_⟩
  obtain ⟨p, hp, hl⟩ := mvRefProbs_some h2 h3
  have hl4 : p.length = 4 := by
    have : mvRefTree.length = 8 := rfl
    omega
  match p, hl4 with
  | [p0, p1, p2, p3], _ => exact ⟨p0, p1, p2, p3, hp⟩

/-- **C50**, clamping (vectors are in eighths of a pixel, a macroblock is 128 wide): the macroblock moved by the clamped
vector lies at most one macroblock outside the picture on every side. -/
theorem C50_clamped_within_overhang (v : MotionVector) (c : MBContext) (hc : c.column < c.width) (hr : c.row < c.height) :
    -128 ≤ c.column * 128 + (clampMv v c).x ∧ c.column * 128 + (clampMv v c).x ≤ c.width * 128 ∧
    -128 ≤ c.row * 128 + (clampMv v c).y ∧ c.row * 128 + (clampMv v c).y ≤ c.height * 128 := by
  unfold clampMv MotionVector.clamp
  simp only
  omega

/-- **C50**: a 16-bit vector that already keeps the macroblock there is not changed. -/
theorem C50_clamp_keeps (v : MotionVector) (c : MBContext) (hx : -32768 ≤ v.x ∧ v.x ≤ 32767) (hy : -32768 ≤ v.y ∧ v.y ≤ 32767)
    (hc : c.column < c.width) (hr : c.row < c.height)
    (h : -128 ≤ c.column * 128 + v.x ∧ c.column * 128 + v.x ≤ c.width * 128 ∧
      -128 ≤ c.row * 128 + v.y ∧ c.row * 128 + v.y ≤ c.height * 128) : clampMv v c = v := by
  obtain ⟨x, y⟩ := v
  unfold clampMv MotionVector.clamp
  simp only [MotionVector.mk.injEq] at *
  omega

theorem clamp_nearest (x lo hi y : Int) (h1 : lo ≤ y) (h2 : y ≤ hi) : (min (max x lo) hi - x).natAbs ≤ (y - x).natAbs := by
  omega

/-- **C50**: clamping gives the nearest such vector, so each component of the result is between the original component and
any permitted 16-bit one. -/
theorem C50_clamp_nearest (v : MotionVector) (c : MBContext) (hc : c.column < c.width) (hr : c.row < c.height) (x y : Int)
    (hx : -32768 ≤ x ∧ x ≤ 32767) (hy : -32768 ≤ y ∧ y ≤ 32767)
    (h : -128 ≤ c.column * 128 + x ∧ c.column * 128 + x ≤ c.width * 128 ∧
      -128 ≤ c.row * 128 + y ∧ c.row * 128 + y ≤ c.height * 128) :
    ((clampMv v c).x - v.x).natAbs ≤ (x - v.x).natAbs ∧ ((clampMv v c).y - v.y).natAbs ≤ (y - v.y).natAbs := by
  unfold clampMv MotionVector.clamp
  exact ⟨clamp_nearest _ _ _ x (by omega) (by omega), clamp_nearest _ _ _ y (by omega) (by omega)⟩

/-! ### Concrete cases -/

/-- A macroblock with free sub-block modes in a key frame with a segment map and a skip probability. -/
def exampleKeyMB : MBModes :=
  { segmentIdUpdate := some 2, skip := some true, yMode := B_PRED, uvMode := TM_PRED, bModes := fun i => i.val % 10 }

theorem exampleKeyMB_ok : exampleKeyMB.KeyOk { exampleKeyHeader with probSkipFalse := some 200 } where
  pre := ⟨by constructor <;> intro _ <;> first | rfl | exact ⟨_, rfl, rfl⟩, by rintro _ ⟨⟩; decide, rfl⟩
  intra := ⟨by decide, by decide, fun _ i => by show i.val % 10 ≤ 9; omega, fun h => absurd h (by decide),
    fun h => absurd h (by decide), fun h => absurd h (by decide), fun h => absurd h (by decide)⟩
  noInter := ⟨rfl, rfl, rfl, rfl, rfl, fun _ => rfl, fun _ => rfl⟩

/-- It can be its own left neighbour. -/
example : ∃ bits, writeKeyMB { exampleKeyHeader with probSkipFalse := some 200 } ⟨1, 0, 2, 2, none, some exampleKeyMB, none⟩ exampleKeyMB = some bits ∧
    RoundTrips (parseKeyMB { exampleKeyHeader with probSkipFalse := some 200 } ⟨1, 0, 2, 2, none, some exampleKeyMB, none⟩) bits exampleKeyMB :=
  C08_key_macroblock_round_trip _ _ _ exampleKeyMB_ok (by rintro _ ⟨⟩) (by rintro _ ⟨⟩; exact exampleKeyMB_ok.intra)

/-- A neighbour predicted from the last frame with the vector (40, -6). -/
def exampleNeighbour : MBModes :=
  { segmentIdUpdate := some 0, isInter := true, sel1 := some false, yMode := NEWMV, mvs := fun _ => ⟨40, -6⟩, uMvs := fun _ => ⟨20, -3⟩ }

def exampleContext : MBContext := ⟨1, 1, 3, 3, some exampleNeighbour, some exampleNeighbour, none⟩

/-- A split macroblock below and right of it, in two halves, predicted from the golden frame with flipped vectors: the upper
half takes the vector of the block above, the lower half a new one. -/
def exampleSplit : MBModes :=
  { segmentIdUpdate := some 3, isInter := true, sel1 := some true, sel2 := some false, flipped := true, partitionId := some 0,
    yMode := SPLITMV, bModes := fun i => if i.val < 8 then ABOVE4X4 else NEW4X4
    mvs := fun i => if i.val < 8 then ⟨40, -6⟩ else ⟨-38, 1006⟩
    uMvs := chromaMvs fun i => if i.val < 8 then ⟨40, -6⟩ else ⟨-38, 1006⟩ }

def exampleScorer : Scorer where
  flipped := true
  scores := ![0, 4, 0, 0]
  mvs := ![⟨-40, 6⟩, ⟨-40, 6⟩, {}, {}]
  splitScore := 0
  index := 1

theorem exampleCensus : census true exampleContext = some exampleScorer := by
  have key : (census true exampleContext).map (fun s => (s.flipped, List.ofFn s.scores, List.ofFn s.mvs, s.splitScore, s.index)) =
      some (true, [0, 4, 0, 0], [⟨-40, 6⟩, ⟨-40, 6⟩, {}, {}], 0, 1) := by decide +kernel
  obtain ⟨s, hs, -⟩ := census_bounded true exampleContext
  rw [hs] at key ⊢
  obtain ⟨f, sc, mv, sp, ix⟩ := s
  simp only [Option.map_some, Option.some.injEq, Prod.mk.injEq] at key
  obtain ⟨rfl, h1, h2, rfl, rfl⟩ := key
  have e1 : sc = ![0, 4, 0, 0] := List.ofFn_injective (by rw [h1]; rfl)
  have e2 : mv = ![⟨-40, 6⟩, ⟨-40, 6⟩, {}, {}] := List.ofFn_injective (by rw [h2]; rfl)
  rw [e1, e2]; rfl

theorem exampleSplit_ok : exampleSplit.InterFrameOk exampleInterHeader exampleContext where
  pre := ⟨by constructor <;> intro _ <;> first | rfl | exact ⟨_, rfl, rfl⟩, by rintro _ ⟨⟩; decide, rfl⟩
  cases := by
    refine Or.inr ⟨exampleScorer, exampleCensus, ?_⟩
    refine ⟨rfl, rfl, by decide, by decide, by decide, rfl, fun h => absurd h (by decide), fun h => absurd h (by decide),
      fun h => absurd h (by decide), fun h => absurd h (by decide), fun h => absurd rfl h, fun _ => ?_, fun _ => rfl⟩
    refine ⟨0, _, rfl, rfl, by decide +kernel, by decide +kernel, by decide +kernel, by decide +kernel, by decide +kernel, ?_⟩
    intro g hg i hi hn
    have : ∀ i : Fin 16, exampleSplit.bModes i = NEW4X4 → exampleSplit.mvs i = ⟨-38, 1006⟩ := by decide +kernel
    rw [this i hn]
    refine ⟨2, 1000, ⟨by decide, by decide, by decide⟩, ⟨by decide, by decide, by decide⟩, ?_⟩
    decide +kernel

example (t : ProbabilityTables) : ∃ bits, writeInterMB exampleInterHeader t exampleContext exampleSplit = some bits ∧
    RoundTrips (parseInterMB exampleInterHeader t exampleContext) bits exampleSplit :=
  C08_inter_macroblock_round_trip _ t _ _ exampleSplit_ok

/-- In the example the census finds the neighbours' vector with weight 4, and clamps nothing. -/
example : clampMv (exampleScorer.mvs 0) exampleContext = ⟨-40, 6⟩ := by decide +kernel

/-- A vector pointing far outside is cut. -/
example : clampMv ⟨-32768, 4000⟩ exampleContext = ⟨-256, 256⟩ := by decide +kernel

end Alfalfa
