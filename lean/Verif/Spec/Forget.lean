import Verif.Spec.System

/-! When a receiver may forget a state it has advertised. -/

namespace Alfalfa

variable {E D : Type}

/-- The state `t` is newer than the state `s`: it comes after a later frame. -/
def System.Newer (sys : System E D) (s t : Nat) : Prop :=
  ∃ (k l : Nat) (f g : FragmentedFrame), sys.sent[k]? = some f ∧ sys.sent[l]? = some g ∧ k < l ∧ f.targetState = s ∧ g.targetState = t

/-- The decoder was given the whole of a frame, in the state the frame was coded against, and this state is newer than `s`. -/
def System.DecodedFromNewer (P : Playing D) (sys : System E D) (s : Nat) : Prop :=
  ∃ (k : Nat) (d : D) (f : FragmentedFrame), sys.sent[k]? = some f ∧ (k, d, (f.fragments.map (·.payload)).flatten) ∈ sys.receiver.handed ∧
    P.minihash d = f.sourceState ∧ sys.Newer s f.sourceState

/-- The receiver can decode a frame that was coded against the state `s`: it has a decoder in this state. -/
def System.CanDecodeFrom (P : Playing D) (sys : System E D) (s : Nat) : Prop := ∃ d, sys.receiver.decoders s = some d ∧ P.minihash d = s

/-- The system goes on from one state to another, without an accident. -/
inductive System.Continues (minihash : E → Nat) (P : Playing D) (initial : Nat) (sys : System E D) : System E D → Prop
  | refl : Continues minihash P initial sys sys
  | step {a b : System E D} (h : Continues minihash P initial sys a) (hs : System.Step minihash P a b)
      (hn : System.NoAccident P initial b.sent b.receiver.handed) (hl : b.sent.length < 2 ^ 32) : Continues minihash P initial sys b

end Alfalfa
