import Verif.Model.Decoder

/-! State hashes (src/decoder/decoder.cc:143-147,266-281,331-340,379-394,482-529, src/decoder/probability_tables.cc:36-57,
src/util/raster.cc:52-61).

`mix` stands for `boost::hash_combine`: `hash_combine( seed, v )` replaces `seed` by a function of `seed` and the hash value of
`v`, which for integers is the integer, converted to 64 bits; `hash_range` is a loop of `hash_combine`.  The definitions
and theorems are about every `mix`. -/

namespace Alfalfa

/-- The hash value of an `int8_t`: its conversion to `size_t`. -/
def hashInt (v : Int) : Nat := (v % 2 ^ 64).toNat

/-- `boost::hash_range` / a sequence of `boost::hash_combine` from the initial value 0. -/
def hashAll (mix : Nat → Nat → Nat) (values : List Nat) : Nat := values.foldl mix 0

/-- `ProbabilityTables::hash` (src/decoder/probability_tables.cc:36-57). -/
def ProbabilityTables.hash (mix : Nat → Nat → Nat) (t : ProbabilityTables) : Nat :=
  hashAll mix (((List.ofFn fun i => (List.ofFn fun j => (List.ofFn fun k => List.ofFn (t.coeffProbs i j k)).flatten).flatten).flatten ++
    (List.ofFn t.yModeProbs ++ (List.ofFn t.uvModeProbs ++ (List.ofFn fun i => List.ofFn (t.mvProbs i)).flatten))).map (·.toNat))

/-- `FilterAdjustments::hash` (src/decoder/decoder.cc:331-340).  The second range goes from the beginning of the mode
adjustments to the end of the reference adjustments.  That end is where the mode adjustments begin (the arrays are adjacent members
of bytes, src/decoder/decoder.hh:96-99), so the range is empty. -/
def FilterAdjustments.hash (mix : Nat → Nat → Nat) (a : FilterAdjustments) : Nat :=
  hashAll mix ((List.ofFn a.ref).map hashInt ++ [])

/-- `Segmentation::hash` (src/decoder/decoder.cc:379-394). -/
def Segmentation.hash (mix : Nat → Nat → Nat) (s : Segmentation) : Nat :=
  hashAll mix (s.absolute.toNat :: ((List.ofFn s.quantizer).map hashInt ++ ((List.ofFn s.filter).map hashInt ++ s.map)))

/-- `DecoderState::hash` (src/decoder/decoder.cc:266-281). -/
def DecoderState.hash (mix : Nat → Nat → Nat) (st : DecoderState) : Nat :=
  hashAll mix ([st.width, st.height, st.tables.hash mix] ++ ((st.segmentation.map (·.hash mix)).toList ++
    (st.filterAdjustments.map (·.hash mix)).toList))

/-- `BaseRaster::raw_hash` (src/util/raster.cc:52-61). -/
def Raster.hash (mix : Nat → Nat → Nat) (r : Raster) : Nat := hashAll mix ((r.y.cells ++ (r.u.cells ++ r.v.cells)).map (·.toNat))

/-- `DecoderHash` (src/decoder/decoder.hh:227-242). -/
structure DecoderHash where
  state : Nat
  last : Nat
  golden : Nat
  alternative : Nat
deriving DecidableEq

/-- `Decoder::get_hash` (src/decoder/decoder.cc:143-147). -/
def Decoder.getHash (mix : Nat → Nat → Nat) (d : Decoder) : DecoderHash :=
  ⟨d.state.hash mix, d.references.last.hash mix, d.references.golden.hash mix, d.references.alternative.hash mix⟩

/-- `DecoderHash::hash` (src/decoder/decoder.cc:482-490). -/
def DecoderHash.hash (mix : Nat → Nat → Nat) (h : DecoderHash) : Nat := hashAll mix [h.state, h.last, h.golden, h.alternative]

/-- `Decoder::minihash` (src/decoder/decoder.cc:516-519). -/
def Decoder.minihash (mix : Nat → Nat → Nat) (d : Decoder) : Nat := (d.getHash mix).hash mix % 2 ^ 32

/-- `Encoder::minihash` (src/encoder/encoder.cc:140-144). -/
def Encoder.minihash (mix : Nat → Nat → Nat) (e : Encoder) : Nat :=
  (⟨e.state.hash mix, e.references.last.hash mix, e.references.golden.hash mix, e.references.alternative.hash mix⟩ : DecoderHash).hash mix % 2 ^ 32

/-- `Decoder::minihash_match` (src/decoder/decoder.cc:522-529): zero is a wildcard. -/
def Decoder.minihashMatch (mix : Nat → Nat → Nat) (d : Decoder) (other : Nat) : Bool := if other = 0 then true else d.minihash mix = other

end Alfalfa
