import Verif.Spec.System
import Verif.Model.Session
import Verif.Model.Conceal
import Verif.Spec.Decoder
import Verif.Spec.Faithful
import Verif.Props.Session

/-! The sender and the receiver with the encoder and the decoder of this program in them.

`hash` is the 32-bit hash of the state of a decoder: `Decoder::minihash` (src/decoder/decoder.cc:516-519), and of an encoder's copy of it:
`Encoder::minihash` (src/encoder/encoder.cc:140-144). -/

namespace Alfalfa

/-- The decoder in the receiver: `FramePlayer::decode` (src/decoder/player.cc:60-63), with error concealment
(src/salsify/salsify-receiver.cc:192).  `none`: it throws. -/
def codecPlaying (hash : Decoder → Nat) : Playing Decoder where
  decode d bytes :=
    match d.getFrameOutputWith codeRenderer true bytes with
    | (d', .ok _) => some d'
    | (_, .error _) => none
  minihash := hash

/-- The decoder that an encoder takes its viewer to have (`export_decoder`, src/encoder/encoder.hh:378). -/
def Session.decoder (s : Session) : Decoder := s.encoder.exportDecoder

/-- What became of one encode job: the picture, the quantizer index, the encoder before and after, the bytes, and the picture that the encoder judged
them by. -/
structure Made where
  original : Raster
  index : Nat
  before : Session
  after : Session
  bytes : List UInt8
  shown : Raster

/-- The job's encoder made this of the picture, whatever it measured on the way and whatever was in its recycled buffers.  It makes one pass
(src/salsify/salsify-sender.cc:287-288). -/
def EncodeJob.Makes (width height : Nat) (original : Raster) (job : EncodeJob Session) (m : Made) : Prop :=
  m.original = original ∧ m.index = job.yAcQi ∧ m.before = job.encoder ∧ ∃ w : Work, w.Ok width height ∧ w.OnePass ∧
    job.encoder.encodeWithQuantizer codeRenderer w original job.yAcQi = .ok (m.after, m.bytes, m.shown)

/-- The frame carries what the job made. -/
structure Made.SentAs (hash : Decoder → Nat) (m : Made) (f : FragmentedFrame) : Prop where
  bytes : (f.fragments.map (·.payload)).flatten = m.bytes
  source : f.sourceState = hash m.before.decoder
  target : f.targetState = hash m.after.decoder

/-- Which of the things made is sent, if any (see `chooseOutput`). -/
def Sender.chosen (hash : Decoder → Nat) (s : Sender Session) (made : List Made) : Option Made := do
  let size ← s.frameSize
  let choice ← chooseOutput s.mode size s.skippedCount
    (List.zipWith (EncodeJob.output fun s => hash s.decoder) s.jobs (made.map fun m => (m.after, m.bytes)))
  let i ← choice
  made[i]?

/-- The system, with what was made of each picture that was sent. -/
structure Broadcast where
  sys : System Session Decoder
  made : List Made

/-- What happens.  The only difference to `System.Step` is that the encoders do what they do.  (A quantizer of the congestion control is at most 127, see
src/salsify/salsify-sender.cc:444-451,464-471.) -/
inductive Broadcast.Step (hash : Decoder → Nat) (width height : Nat) (b : Broadcast) : Broadcast → Prop
  | startEncode (now : Int) (cc : Nat) (hcc : cc ≤ 127) (due : Bool) (s : Sender Session) (h : b.sys.sender.startEncode now cc due = some s) :
      Step hash width height b { b with sys := { b.sys with sender := s } }
  | endEncode (original : Raster) (ho : original.Ok width height) (made : List Made)
      (hm : List.Forall₂ (fun job m => job.Makes width height original m) b.sys.sender.jobs made) (time : Nat) (ht : time < 2 ^ 32)
      (s : Sender Session) (ff : Option FragmentedFrame)
      (h : b.sys.sender.endEncode (fun s => hash s.decoder) (made.map fun m => (m.after, m.bytes)) time = some (s, ff)) :
      Step hash width height b { sys := { b.sys with sender := s, sent := b.sys.sent ++ ff.toList }, made := b.made ++ (b.sys.sender.chosen hash made).toList }
  | data (f : FragmentedFrame) (hf : f ∈ b.sys.sent) (p : Packet) (hp : p ∈ f.fragments) (wire : List UInt8) (hw : p.toBytes = some wire) (avg : Nat)
      (r : Receiver Decoder) (ack : Option AckPacket) (h : b.sys.receiver.receive (codecPlaying hash) wire avg = some (r, ack)) :
      Step hash width height b { b with sys := { b.sys with receiver := r, acks := b.sys.acks ++ ack.toList } }
  | ack (lost rest : List AckPacket) (a : AckPacket) (ha : b.sys.acks = lost ++ a :: rest) (s : Sender Session) (h : b.sys.sender.acknowledge a = some s) :
      Step hash width height b { b with sys := { b.sys with sender := s, acks := rest } }

/-- What the two programs come to, with fewer than 2^32 frames. -/
inductive Broadcast.Reaches (hash : Decoder → Nat) (width height : Nat) (mode : OperationMode) (base : Session) (d : Decoder) (now : Int) : Broadcast → Prop
  | start : Reaches hash width height mode base d now ⟨System.start (fun s => hash s.decoder) (codecPlaying hash) mode base d now, []⟩
  | step {b b' : Broadcast} (h : Reaches hash width height mode base d now b) (hs : Broadcast.Step hash width height b b')
      (hl : b'.sys.sent.length < 2 ^ 32) :
      Reaches hash width height mode base d now b'

/-- How the two programs start: a new encoder and any decoder of the same size, of which the hashes agree.  (A new encoder and a new decoder both have
blank references.) -/
structure Broadcast.Starts (hash : Decoder → Nat) (width height : Nat) (base : Session) (d : Decoder) : Prop where
  fits : Fits width height
  hash32 : ∀ x, hash x < 2 ^ 32
  created : ∃ realtime references, Session.create width height realtime references = some base
  decoder : d.Ok
  wide : d.state.width = width
  high : d.state.height = height
  same : hash base.decoder = hash d

/-- The hash tells the decoders that the receiver had from the states that the frames lead to, if they differ. -/
def Broadcast.NoCollision (hash : Decoder → Nat) (d : Decoder) (b : Broadcast) : Prop :=
  ∀ x, b.sys.receiver.Had (codecPlaying hash) d x → ∀ m ∈ b.made, hash x = hash m.after.decoder → x = m.after.decoder

end Alfalfa
