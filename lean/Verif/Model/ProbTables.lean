import Verif.Model.Header
import Verif.Model.Tokens

/-! `ProbabilityTables` (src/decoder/decoder.hh:57-91, src/decoder/probability_tables.cc). -/

namespace Alfalfa

/-- `struct ProbabilityTables` with its default member values (src/decoder/decoder.hh:57-70). -/
@[ext] structure ProbabilityTables where
  coeffProbs : CoeffProbs := coeffDefaultProbs
  yModeProbs : Fin 4 → Prob := yModeDefaultProbs
  uvModeProbs : Fin 3 → Prob := uvModeDefaultProbs
  mvProbs : Fin 2 → Fin 19 → Prob := mvDefaultProbs

/-- `MVProbUpdate::read_half_prob` (src/decoder/frame_header.hh:178-181). -/
def readHalfProb (n : Nat) : Prob := if n ≠ 0 then UInt8.ofNat (n <<< 1) else 1

/-- `ProbabilityTables::coeff_prob_update` (src/decoder/probability_tables.cc:72-88). -/
def ProbabilityTables.coeffProbUpdate (t : ProbabilityTables) (u : TokenProbUpdate) : ProbabilityTables :=
  { t with coeffProbs := fun i j k l => match u i j k l with | some p => UInt8.ofNat p | none => t.coeffProbs i j k l }

/-- `ProbabilityTables::update( InterFrameHeader )` (src/decoder/probability_tables.cc:93-116). -/
def ProbabilityTables.update (t : ProbabilityTables) (h : InterFrameHeader) : ProbabilityTables :=
  { t.coeffProbUpdate h.tokenProbUpdate with
    yModeProbs := match h.intra16x16Prob with | some v => fun i => UInt8.ofNat (v i) | none => t.yModeProbs
    uvModeProbs := match h.intraChromaProb with | some v => fun i => UInt8.ofNat (v i) | none => t.uvModeProbs
    mvProbs := fun i j => match h.mvProbUpdate i j with | some p => readHalfProb p | none => t.mvProbs i j }

end Alfalfa
