# Formal model of excamera/alfalfa in Lean 4 — design

## Layout

* `lean/Verif/Model/*.lean`  — the model: total computable functions, one per C++ function,
  each with a comment citing the file and lines in `/repo` it models and the simplifications made.
* `lean/Verif/Spec/*.lean`   — small specifications used in theorem statements, written without
  reference to the model's helpers (where one is needed).
* `lean/Verif/Proof/*.lean`  — lemmas.
* `lean/Verif/Props/*.lean`  — the property theorems (named `C01_…`), each next to `example`s
  that exhibit concrete, non-trivial inputs meeting its hypotheses.

Machine integers: `Nat`/`Int` with explicit `% 2^k`, wrap or clamp wherever the C++ type can
wrap; where the C++ would have undefined behaviour (out-of-range `at`, popping an empty vector, a shift
by the type's width, a failed assert, a thrown exception) the model returns a distinct
outcome (`none`, `Except.error`, a `ub` constructor).

## Plan per property

| id | what is modelled | how it is proved |
|----|------------------|------------------|
| C01, C02 | BoolEncoder (`put`, carry, flush) byte by byte with its 32-bit registers; BoolDecoder with its value/range/bit-count registers | refinement of both machines to exact interval arithmetic (low end as an unbounded natural number); invariant by induction over the bit list |
| C03 | BoolDecoder on arbitrary bytes | invariant by induction |
| C04 | tree writer/reader and every tree table | structural lemma on well-formed trees + kernel-decided well-formedness of each table |
| C05 | header serializer/parser field by field | composition of round-trip lemmas for field combinators |
| C06 | motion vector component writer/reader | arithmetic + composition |
| C07 | token writer/reader for a block | induction over the coefficient list |
| C08, C09 | macroblock modes, frames as grids; partition interleaving by row | induction over macroblocks with the context as an invariant |
| C10, C11 | `make_frame`, `UncompressedChunk` | list arithmetic; sub-range predicate |
| C12 | parsers over an arbitrary bit source | range lemmas by composition |
| C13, C14, C15, C17, C18 | `DecoderState`, `References`, `parse_and_apply`, `decode_frame`, `write_frame`, with post-exception state | case analysis, induction on histories |
| C16 | tagged state serializer | byte-level round trip |
| C19 | the sequence of values fed to the hash functions | injectivity / counterexample |
| C20–C26 | `Packet`, `AckPacket`, `FragmentedFrame` at byte level | round trip; induction on delivery sequence |
| C27, C28 | receiver state machine | invariant over packet sequences |
| C29–C31 | sender state machine | invariant over event sequences |
| C29, C60 | sender, receiver and a network that loses, duplicates and reorders | inductive invariant of the composition |
| C32 | `Pacer` | invariant over op sequences |
| C33, C34, C53, C61 | `IVFWriter`, `IVF`, `xc-merge` over byte lists | round trip |
| C35–C37 | rasters as functions on coordinates, six-tap interpolation both paths | pointwise equality |
| C38 | intra prediction modes | pointwise |
| C39, C40 | loop filter arithmetic and parameters | bit-exact integer functions, range lemmas |
| C41 | IDCT / WHT | linear integer arithmetic |
| C42, C43 | quantizer tables, quantize/dequantize | tables by kernel decision, division lemmas |
| C63, C64 | `Frame::decode`, `Frame::loopfilter` over macroblocks in raster order | equations per region, fold over disjoint regions, uniqueness by order |
| C44–C47, C65 | encoder decision logic with the estimate/quality/cost as parameters | loop invariants |
| C66 | the motion search over the padded reference, with any cost function | induction on the step, margin arithmetic |
| C67, C69 | the encoder's loop over macroblocks, with mode decisions, contexts and costs as arbitrary choices | fold invariant: what has been coded is a frame prefix that the decoder turns into the encoder's picture |
| C70 | `trellis_quantize` with the block type as it is at that moment | from C47 |
| C71 | the decoder with error concealment: acceptance of cut-off frames, the branches for missing data in the parsers | relation between a reader at the end of its data and one with zeros after it, kept by every parser; evaluation of the frame that zero bits make |
| C72 | the system of C60 with the encoder sessions of C69 and the decoder of C71 at its ends | invariant: frames and what was made are aligned, every encoder is the first or comes after a frame that was sent; then C69, C71 and the receiver's theorems |
| C73 | the system of C60 | invariant: each state that an acknowledgement lists is still listed or a frame was decoded from a newer state |
| C74 | `reencode` and what it calls, over the encoder of C67 | fold invariant as in C67, each coded macroblock is the old one but for its skip flag; the macroblock contexts of the new frame agree with the old ones; then C17 frame by frame |
| C75 | the coding steps of C67 and C74 (predict, subtract, transform, quantize, reconstruct) | Spec/Fidelity.lean: a bound from the steps of the quantizer; real-number free error analysis of fdct/idct and wht/iwht (`OffBy`), lifted to macroblocks and folded with the invariant of C67; for a second pass (Proof/TwoPass.lean) the search is bounded by one step per coefficient, which doubles the steps |
| C76 | the loop filter of C39 | Spec/Fidelity.lean: `reach`; each line filter moves a pixel by a bound for its distance from the edge, and the sum over all edges of a frame that touch a pixel is at most one macroblock edge in each direction |
| C77 | the session of C69 and the two programs of C72 | composition of C75, C76, C69 and C72: each call gives a picture near the original (Spec/Faithful.lean), and what a decoder or the viewer is shown is that picture |
| C78 | the loops of xc-enc and vp8decode around the reader, the encoder, the container and the decoder | what an input gives one after the other is an inductive predicate; induction over it, with C77 for the calls, C33 and C55 for the file between, C51 for the bytes at both ends; that every frame fits the container follows from C68 |
| C79 | the loops of decode-bundle and xc-dump over files, frames and names | induction over the frames and over the files, with the chunks split where the first one does not follow on; C53 and C55 for the comparison with the merged file; C16 and C18 for the saved state |
| C80 | `Camera::get_next_frame` for all five formats as copies into a recycled raster; the ring of four driver buffers as a line of events | the copy loops put byte k of the image at byte k of the padded plane (`pour_spec`), so the picture is the image exactly when the rows are not padded; an invariant on the ring says that the filled buffers follow the next index. Partial: other widths and the first JPEG picture are wrong in the code, with theorems that say so |
| C81 | `main` of fake-webcam on the Y4M reader and writer of C33/C78 | induction over the frames: what is read holds the bytes of the frame (C33), what is written holds the same picture, and a picture has one list of bytes |
| C82 | `Costs` (all tables but `sad_costs`), `trellis_quantize` with these tables, `update_rd_multipliers` with its `double` product | the recursion that fills a table sets each leaf to the price of its path (`computeCost_leaves`); paths are the bits of the serializer; the 4096 entries for values are compared with the bits by the kernel; induction over the trellis from its end: a node's rate is the price of the bits of the walk from it, and its distortion the squares up to the first dropped place |
| C83 | `main` of xc-zero-out-residues, `zero_out` of blocks and macroblocks, the serializer with the tables of the decoder | a decoder reads what the serializer wrote (C05); a macroblock that is marked as skipped has no coefficients in either direction, so the residues that were read do not matter; induction over the frames. Partial: frames without a skip probability are refused |
| C84 | `main` of ivfcopy, ivfcompare, extract-key-frames, roundtrip and xc-framesize | a file is its layout (C33); induction over the frames; for roundtrip the step of an encoder and of its decoder (C13, C17). Partial: the expected hash is not copied |
| C85 | the MMX, SSE2 and SSSE3 code next to the portable one, instruction by instruction on registers of 16 bytes | lemmas that say what each instruction does to each lane; staged so that each stage is a function of lanes; then the bounds of C41 to show that nothing wraps where the portable code has 32 bits. Partial: the inverse transforms wrap for some coefficients that a frame may hold |
| C86 | the whole decoder and the whole encoder with the vector code in place of the portable one (`SseRender`, `SseEncode`) | each place of the pipeline by C85; what the encoder quantizes is no larger than what it transformed, so the sums of the inverse transforms fit (`codeIntra_fits`, `codeInter_fits`); vectors it chooses are clear of the end of the reference; induction over the macroblocks with the invariant of C67 |
| C87 | size estimates: the frame of every fourth macroblock of every fourth row (`Estimate`) | the frame is one that the serializer accepts (C67's invariant, for pictures of a quarter of the width and height), so C68 bounds it and C01 reads it back; the session is put back; `targetLoop` with the estimates told; histories by C69 |
| C88 | comp-states and xc-diff (`CompareStates`), files as byte lists | loops as sums over positions; loading inverts saving (C16); the comparison of each part is equality, of pictures up to a collision of hashes |
| C89 | `Optional` with the flag and the lifetime of the object apart (`Optional`) | refinement of variables that hold a value or nothing; the objects made and not destroyed are counted |
| C90 | `FileDescriptor` reading and writing through a system that decides how many bytes each call moves and which fail (`Descriptor`) | induction on the loops with what was moved so far; refinement of the input of Model/Y4m |
| C91 | descriptor numbers, given out and given back (`Descriptor`) | refinement of objects that hold files, with an invariant about the table |
| C92 | the event loop, the worker thread and the jobs of the sender as threads whose steps interleave (`EncodeLoop`) | an inductive invariant (`Phase`) over all interleavings, with a measure for progress; the full statement is refuted by a witness |
| C93 | the two moving averages, over the rationals with an arbitrary rounding after each operation (`Average`); the rounding of IEEE 754 to `binary64` (Spec/Double.lean) is proved to be one of them | an invariant (at most half a unit above the bound) by induction over the packets; the full statement is refuted by two witnesses |
| C94 | two sessions of C69 with different headers from the pool (`LeftKey`, `LeftInter`: all headers that encoders can leave) | a relation between the two sessions, by induction over the calls; the full statement is refuted by a witness |
| C95 | the counter of token branches, function by function (Model/Counts); specification: labelled bits that do not depend on the tables | the writer and the counter are both shown to be images of one labelled sequence, by induction over coefficients, blocks and macroblocks; what the full statement misses is proved with witnesses |
| C96 | `Chunk` on 64-bit numbers, `MMap_Region` and `File` as objects over mappings that the kernel places (Model/Mapped) | an invariant (mappings apart, one owner each) by induction over all sequences of actions; parts and numbers by arithmetic; the full statement is refuted by four witnesses |
| C97 | `Address` as bytes, `ip_port` over a C library that is a parameter, `UDPSocket::recv` and `send` over what the kernel answers (Model/Address) | induction over the events of a network that keeps what was sent; how `inet_ntop` writes an address is in Spec/Names.lean; the full statement is refuted by three witnesses |
| C98 | what the receiver and the sender keep (Model/Receiver, Model/Sender), the memory an acknowledgement takes (Model/Memory) | invariants over all events; the full statement is refuted: a receiver and a sender that keep everything, for any codec and any number of frames, and an acknowledgement of 20 bytes |
| C99 | `SafeReferences::load` and `SafeRaster::copy_raster` as writes to the heap (Model/SafeCopy); the copy has the shown size, the picture whole macroblocks | induction over the rows, each of which overwrites what the one before wrote too far; the search of C66 on this copy by congruence; the full statement is refuted for every width that is not a multiple of 16 |
| C100 | no new definitions: the receiver of C27 and the sender of C28 get a datagram that neither of them caused | the step lemmas of C27, for every state and every way of decoding; the full statement is refuted by one datagram for the receiver and by three acknowledgements for the sender |
| C101 | `xc-ssim` and `ssim` (Model/Ssim): what the measure is pointed at, with the measure itself (libx264, not in the repository) as a parameter | induction over the two lists of pictures that the inputs give; an exact condition for reads past the end of the second image; the full statement is refuted for videos of different sizes and lengths, for pixels that are not shown, and for the default format |
| C102 | `xc-dissect` (Model/Dissect) over the parser of C13 and C29, against a separate table of names (Spec/Dissect) | every macroblock that the parser can give has a name for each of its modes (no array of names is read outside); induction over the frames of the file; the status is success exactly if every frame is readable |
| C103 | `xc-enc` with `--input-state` and `--output-state` and its options for the mode (Model/Resume) over the encoder of C69 and C77 and the dump program of C79 | two encoders that differ only in the golden and the alternate picture and the adjustments of the loop filter do the same at every call (`Twin`), so the encoder from a file is as good as the one that made it; induction over the chunks; states with segments are not covered |
| C104 | the tests serdes-test and encode-loopback as functions of the numbers drawn (Model/SelfTest), over Model/SaveState, the coder and the trees | a predicate on what a generator can draw, carried through its loops; the loaders undo the savers for every value that fits; the layout is a separate specification (Spec/SaveLayout) and equality with it is proved part by part |
| C105 | the function that writes a saved state to a file, with a system that stores any number of bytes per call, fails at any call and stops at any moment (Model/StateFile), and the dump program over it | what is in the file is a beginning of the saved bytes (induction on the calls); the length at the start of the file is that of the whole, so every other length is refused; the last clause is refuted |
| C106 | the writer and the parser of macroblock modes (Model/Macroblock, Model/MotionVector, Model/Tree) against a separate specification that has no trees and no census (Spec/ModeBits) | each tree against its written-out code words over its whole finite set of symbols; blocks by their place; an abstraction from the census to the list of vectors found; then part by part; the parser by C08 |
| C107 | the writer and the parser of coefficients (Model/Tokens, Model/Frame) against a separate specification (Spec/CoefficientBits) | the scan and the bands over their finite domains; magnitudes by category; induction over the coefficients of a block with the trailing zeros removed; the parser by C07 |
| C108 | the writer and the parser of frame headers (Model/Header) against a separate specification (Spec/HeaderBits) | each combinator equals its counterpart in the specification (induction on widths and array lengths); the header is then the concatenation; the parser by C05 |
| C109 | make_frame and UncompressedChunk (Model/Container) against a separate specification of the bytes of a frame (Spec/FrameBytes) | arithmetic on the bytes of the tag and the lengths; the reader by C10; conversely, what the reader accepts by C11 and induction on the lengths |
| C110 | BoolDecoder and BoolEncoder (Model/BoolCoder) against a separate specification with exact numbers (Spec/Arithmetic) | induction on the probabilities with the invariant of C01 (the decoder is at an interval that holds the string, padded with zeros); the encoder by the number that its output is |
| C111 | The serialized bytes of a whole frame against Spec/WholeFrame.lean (RFC 6386 sections 5 and 9.5): neighbours by place, the first partition, rows dealt to partitions, earlier Y2 blocks | composition of C106–C110 and C57: induction over the macroblocks for the first partition, and over them with a selected partition for the coefficients |
| C112 | Splitting, header, modes and coefficients of bytes that hold a frame by Spec/ReadFrame.lean, from any encoder | C110_reading turns the bits of the specification into reads of the decoder; then the parser logic of C09 with the bits of C106–C108, and C109_reader |
| C113 | `Decoder::get_frame_output` and runs of it on any bytes that hold the same frames (Spec/SameFrame.lean) | the result is written from the frame alone, then C112's reading shows that all such bytes give it; streams by induction with the state invariant of C12 |
| C114 | Runs of `Encoder::write_frame` against the specification of held frames (Spec/ReadFrame.lean, Spec/SameFrame.lean) | induction on the frames emitted: C111's bytes hold the frame, C17 for the decoder in step, C113 for other bytes |
| C68 | serialized bits with the cost of each | a potential function on the state of the bool encoder |
| C48 | `TwoDStorage`, contexts | index arithmetic |
| C49 | picture pool and handle state machine | invariant over op sequences |
| C50 | `Scorer` | case analysis |
| C51, C52, C54, C55 | y4m reader/writer, chunk terminator, poller, player | round trip / invariants |

SSIM and OpenGL are not modelled; the C library and the kernel (threads, files, sockets, clocks) are modelled by what they may answer
(they appear as parameters where needed). The theorems about the codec are about the portable code; C85 and C86 say where the vector code is the same. Hash functions (boost::hash) are parameters.

## What is modelled so far

| area | files of `/repo/src` | model |
|------|----------------------|-------|
| boolean coder | encoder/bool_encoder.hh, decoder/bool_decoder.hh | Model/BoolCoder |
| trees, probability tables | decoder/tree.*, vp8_header_structures.hh, vp8_prob_data.cc, modemv_data.cc | Model/Tree, ProbTables, ProbData |
| headers, motion vectors, tokens, macroblocks, frames | decoder/frame_header.hh, modemv.cc, tokens.cc, macroblock.*, frame.cc (parsing), encoder/serializer.cc | Model/Header, MotionVector, Tokens, Macroblock, Frame |
| container | decoder/uncompressed_chunk.*, util/chunk.hh, encoder/serializer.cc make_frame | Model/Container |
| decoder state, references, encoder mirror | decoder/decoder.*, decoder_state.hh, frame.cc copy_to, encoder/encoder.cc write_frame, update_decoder_state | Model/DecoderState, Decoder |
| state files | decoder/decoder.cc (de)serialize, decoder/enc_state_serializer.hh | Model/SaveState |
| state hashes | decoder.cc, raster.cc hash functions, with boost::hash_combine as a parameter | Model/StateHash |
| packets, acknowledgements, fragmentation, reassembly | net/packet.* (without the socket calls) | Model/Packet |
| pacer | net/pacer.hh, the sending loop of salsify/salsify-sender.cc | Model/Pacer |
| receiver | salsify/salsify-receiver.cc (the callback; without display, socket, and the average of delays) | Model/Receiver |
| sender | salsify/salsify-sender.cc (the callbacks; without camera, threads, and the rate estimate of the mode `conventional`) | Model/Sender |
| IVF files, merging | util/ivf.cc, util/ivf_writer.cc, frontend/xc-merge.cc (files as byte lists) | Model/Ivf |
| two-dimensional buffers | util/2d.hh (`TwoDStorage`) | Model/Grid |
| intra prediction | decoder/prediction.cc:99-643 (portable versions), util/2d.hh sub-ranges | Model/Pixels, Intra |
| inter prediction, edge extension | decoder/prediction.cc:645-971 (portable versions), decoder/vp8_raster.hh EdgeExtendedRaster, decoder/safe_raster.cc | Model/Inter |
| quantizers | decoder/quantization.cc, frame.cc calculate_segment_quantizers, block.hh (de)quantization | Model/Quantizer |
| transforms | decoder/transform.cc, dct.cc, encoder's subtract_dct and wht (portable versions) | Model/Transform |
| loop filter | decoder/loopfilter.cc, loopfilter_filters.hh (the normal filter; the simple one is refused by the code) | Model/LoopFilter |
| pictures of whole frames | decoder/frame.cc decode, loopfilter; macroblock.cc reconstruct_intra, reconstruct_inter, loopfilter; block.hh | Model/Render |
| decisions of the encoder | encoder/encoder.cc calc_prob, optimize_*, trellis_quantize, check_reset_y2, the searches for quantizer and level | Model/Choices |
| costs | encoder/costs.cc and costs.hh without `sad_costs` (`log2f`), encoder.cc update_rd_multipliers | Model/Costs |
| motion search | encoder/encode_inter.cc diamond_search and the loop for NEWMV, costs.cc motion_vector_cost, sad_motion_vector_cost; safe_raster.cc | Model/Search |
| size estimates | encoder/size_estimation.cc, encoder.cc encode_with_target_size with them | Model/Estimate |
| comparing saved decoders | frontend/comp-states.cc, xc-diff.cc, the operators == of decoder.cc, probability_tables.cc, raster_handle.cc | Model/CompareStates |
| optional values | util/optional.hh (which constructor a call selects is not modelled) | Model/Optional |
| descriptors | util/file_descriptor.hh, util/exception.hh (descriptors made from a `FILE *`, and `size`, are not modelled) | Model/Descriptor |
| threads of the sender | salsify/salsify-sender.cc:340-714 (who touches which variable and when; what the jobs compute is in Model/Sender) | Model/SenderThreads |
| averages | salsify/salsify-receiver.cc:55-83, salsify/salsify-sender.cc:61-89 (`double` is a rational with a rounding of which only order, zero and relative error are used; that rounding to nearest even has them is proved, `Rounds.double`) | Model/Averages |
| branch counts | src/encoder/serializer.cc:455-593 (counters are natural numbers; that they fit is `C95_no_overflow`) | Model/Counts |
| mapped files | util/chunk.hh, util/mmap_region.cc, util/file.cc (pages of 4096 bytes; the descriptor is in Model/Descriptor) | Model/Mapped |
| sockets | net/address.cc (without the look-up of names), net/socket.cc:104-212 (the C library and the kernel are parameters) | Model/Address |
| memory | net/packet.cc:299-327 (what the deque of an acknowledgement takes) | Model/Memory |
| padded references | encoder/safe_references.cc, decoder/safe_raster.cc, util/2d.hh:93-97 as bytes in the heap | Model/SafeCopy |
| comparison | frontend/xc-ssim.cc, util/ssim.cc without libx264's function | Model/Ssim |
| description of frames | frontend/xc-dissect.cc, without the layout of the lines | Model/Dissect |
| encoding from a state | frontend/xc-enc.cc:108-124,146-224,260,327-388, without the text of the options; encoder/encoder.cc:83-90 | Model/Resume |
| randomised tests | tests/serdes-test.cc:66-265, tests/encode-loopback.cc:40-124; not the dots printed, the number of rounds on the command line, and how the library makes a number in a range | Model/SelfTest |
| state files | src/decoder/enc_state_serializer.hh:107-115, src/frontend/xc-dump.cc:104-149; of `std::ofstream` only that it stores its bytes in order, in pieces, and no more after a failed call | Model/StateFile |
| from pictures to frames | encoder/encode_intra.cc, encode_inter.cc (without splits, which are not used), encoder.cc calculate_has_nonzero, apply_best_loopfilter_settings; decisions that depend on costs or floating point are arguments | Model/Encode |
| a session of the encoder | encoder/encoder.cc constructor, encode_with_quantizer, encode_with_minimum_ssim, encode_with_target_size (qualities are elements of any linear order, so NaN is not covered) | Model/Session |
| the encoder and decoder programs | frontend/xc-enc.cc main without --reencode, state files and options, read_next_frame_size; input/frame_input.hh; input/ivf_reader.cc; frontend/vp8decode.cc main without state files | Model/Convert |
| the programs for chunks | frontend/decode-bundle.cc main without its messages; frontend/xc-dump.cc main without its options | Model/Bundle |
| camera | input/camera.cc get_next_frame and the queueing of buffers (driver calls, mapping and negotiation are events; motion JPEG from the planes that libjpeg gives) | Model/Camera |
| raw video played as a camera | salsify/fake-webcam.cc main without the waiting | Model/Webcam |
| playback | decoder/player.cc (without the reading of raw frames), the loops of frontend/vp8decode.cc, vp8play.cc | Model/Player |
| decoding of cut-off frames | uncompressed_chunk.cc, decoder_state.hh, macroblock.cc with `accept_partial`, `error_concealment` | Model/Conceal |
| re-encoding of chunks | encoder/reencode.cc, frontend/xc-enc.cc (with `--reencode`, without options, files and the comparison of hashes) | Model/Reencode |
| chunk terminator | frontend/xc-terminate-chunk.cc | Model/Terminate |
| removal of residues | frontend/xc-zero-out-residues.cc main | Model/ZeroOut |
| tools for IVF files | tests/ivfcopy.cc, tests/ivfcompare.cc, tests/extract-key-frames.cc, tests/roundtrip.cc, frontend/xc-framesize.cc (without messages) | Model/IvfTools |
| event loop | net/poller.cc (readiness is an argument; callbacks are functions on any program state) | Model/Poller |
| raw video files | input/yuv4mpeg.cc, util/raster.cc (display_rectangle_as_planar), frontend/vp8decode.cc (writing) | Model/Y4m |
| picture pool and handles | decoder/raster_handle.cc (and frame_pool.cc, which is the same without caches and shared handles) | Model/Pool |
| both with a network | — | Spec/System (composition of Model/Sender and Model/Receiver) |
| both with a network and the codec | — | Spec/Broadcast (the same with Model/Session and Model/Conceal; the pictures that an encode works on and its decisions are arguments of the step) |
| instructions on vectors | — | Model/Sse (the meaning of each MMX, SSE2 and SSSE3 instruction that is used) |
| vector code | decoder/*.asm, encoder/variance_sse2.cc | Model/SseBlocks (SAD, sum of squares, variance), Model/SseTransform (subtraction, transforms, dequantization), Model/SseInter (the six-tap filters and the prediction from another picture), Model/SseIntra (the intra predictors that prediction.cc calls), Model/SseFilter (the loop filter that loopfilter.cc calls). Simplified in the loop filter: a pixel that is loaded again before it is stored is taken from the first load, the lines of one edge are stored in one order, and the upper half of the register of an `int` stride is taken to be its sign. Not modelled: the functions of the simple filter and for 32 bits, which are never called; faults of `movdqa` and the like at addresses that are not aligned; the state that MMX code leaves without `emms` |

In the decoder layer the computation of pictures is a parameter (`Renderer`): the theorems hold for every function of the arguments
that `Frame::decode` and `Frame::loopfilter` have. Model/Render gives the function of the code (`codeRenderer`), and `C63_renderer`,
`C63_decoder` show that it is such a function and that a decoder with it outputs the pictures of C63 and C64. `error_concealment_` is false there; Model/Conceal is the
decoder with it as an argument. Function arguments with side effects on the bool
decoder are taken to be evaluated in the order in which the members are declared (all are initialised through constructor
initializer lists or braces, where C++ fixes the order).

## Where the code does not have the property

Each is a theorem with a witness; the corresponding property is stated in full in `properties.jsonl` and what holds is proved with
the suffix `_partial`, or the exception is part of the statement.

* C15: reference copies are sequential (alternate first), not simultaneous — `C15_exchange_is_not_simultaneous`.
* C16: a saved decoder keeps only its last reference — `C16_restores_exactly_iff`.
* C17: the encoder does not mirror segmentation — `C17_segmentation_out_of_step`.
* C18: a frame whose coefficient partitions are cut off is refused after the state was changed — `C18_truncated_frame_changes_state`.
* C19: loop-filter adjustments by mode are not hashed (empty iterator range) — `C19_mode_adjustments_not_hashed`.
* C23: frames that are empty or longer than 65535 fragments cannot be cut (`C23_other_lengths`); the property is stated for the others.
* C28: a state that is advertised twice can be erased while it is still advertised — `C28_readvertised_state_lost`,
  `C28_wrong_decoder_used`; an assertion can fail after a partly lost frame — `C28_assertion_reachable`.
* C29: acknowledgements that overtake each other can end the sender — `C29_reordered_acknowledgements_end_sender`; a frame that leads to
  the initial state makes the sender drop the initial encoder — `C29_initial_encoder_erased`.
* C60: in the mode `conventional` a delay of zero is divided by — `C60_zero_delay_ends_conventional_sender`.
* C60: if only the first packet of a frame arrives and the others hold nothing but zero bytes, the decoder ends in the state after the frame (missing
  bytes are read as zeros), the receiver does not list this state, and the next frame, coded against it, makes the receiver's assertion fail — `C60_lost_zeros_end_receiver`.
* C73: an acknowledgement that is under way while the conservative time of the sender ends names a state that the receiver has meanwhile forgotten; the
  sender becomes conservative and codes against it, and the frame is decoded in a wrong state — `C73_conservative_frame_misdecoded`.
* C74: re-encoding does not keep the show flag of inter frames — `C74_hidden_frame_shown`; it copies the header that announces segments but not the
  segments of the macroblocks — `C74_segments_lost`.
* C33: a frame of 2^32 bytes or more is read back shorter — `C33_long_frame_is_cut`; the property is stated for the others.
* C34: the last frame may reach past the end of the file and is then refused only when it is read — `C34_last_frame_may_be_missing`.
* C32: packets leave up to a millisecond before they are due — `C32_head_sent_early`.
* C59: malformed and foreign datagrams end the receiver — `C59_malformed_datagram_ends_receiver`, `C59_foreign_packet_ends_receiver`.
* C56: see its theorems.
* C40: the level of a segment is not limited to 0..63 before adjustments are added — `C40_adjust_deviation`.
* C41, C42: coefficients that are too large overflow 16-bit intermediates — `C41_idct_overflow`, `C42_dequantize_overflow`; the
  properties are stated for coefficients in range.
* C43: a segment's negative quantizer index is taken as 127 instead of 0 — `C43_segment_deviation`.
* C64: false where C40, C41 or C43 is; proved under `WithinRange`, which excludes exactly those.
* C44: token probability updates stay in the header the encoder keeps for its next frame and are sent again even if the estimate agrees with
  the table — `C44_stale_update_wins`; estimates are wrong from 2^24 counts on — `C44_large_counts`.
* C45: after a frame with an index of 144 or more the search window is empty and 255 is used — `C45_empty_window`.
* C46: the search passes `true` for the wrong parameter, so the quality is never measured — `C46_ignores_quality`, `C46_not_coarsest`.
* C66: in pictures wider or taller than 3968 pixels a new vector can wrap around in 16 bits, and the encoder reads outside of the padded
  copy of the reference — `C66_wide`.
* C69: a quantizer index of 128 to 254 is used as 127 but sent without its upper bit — `C69_wide_index`; an encoder for pictures
  narrower or lower than 4 pixels cannot be made — `C69_create`.
* C70: in the second pass over a key frame, a block of a `B_PRED` macroblock that had a Y2 block after the first pass is still marked so when
  its coefficients are chosen; its DC coefficient is sent unquantized — `C70_stale_type`, `C70_stale_dc`.
* C71: the concealment branches are never taken: the reader is told that the first partition is complete exactly when it is not —
  `C71_no_macroblock_concealed`; so a lost frame gives gray, not the last picture — `C71_last_picture_not_repeated`.
* C52: the terminator writes experimental inter frames, which the decoder refuses, as ordinary ones (hence C52_same_pictures is stated in one
  direction); frames longer than the length fields are written without complaint (C68), so the theorems assume lengths that fit.
* C55: a file that ends with hidden frames ends in an error instead of its end (part of `reel`); a damaged tag before the first key frame
  makes the file unplayable — `C55_damaged_start_refused`.
* C49: the hash of a picture that is still mutable is not dropped when the picture is written to — `C49_mutable_hash_is_stale`; a picture of
  another size is refused once a picture has been released — `C49_other_size_refused`.
* C51: files of more than one picture of an odd width or height are misread, since the writer rounds chroma planes up and the reader rounds them
  down — `C51_odd_size_misread`; the last chroma column is then what was left in a recycled buffer — `C51_odd_width_shows_old_chroma`,
  `C51_odd_depends_on_pool`.
* C54: interest is asked for once, before any callback of a poll runs — `C54_interest_may_be_gone`; a descriptor whose action is cancelled, not
  interested or at its end still ends the loop when it fails — `C54_cancelled_descriptor_ends_loop`.
* C80: unless the width is a multiple of 16, the rows of the camera's image are not put where the rows of the picture are (`C80_other_widths`); the
  first motion-JPEG picture is whatever the pool held (`C80_first_jpeg`); the index of the buffer that the driver gives back is not looked at
  (`C80_order_assumed`).
* C58: loop-filter adjustments that a header does not send are reset to zero, not kept — `C58_unsent_adjustments_are_lost`.
* C82: the search for coefficients forgets the errors of the places after the first one that it drops (`current_node.distortion = sse`, encoder.cc:363), so the error of a zero counts only if the
  coefficient before it is kept, and coefficients are given up that should be kept — `C82_search_ignores`, with the default probabilities and the multipliers for the index 40.
  Not modelled, but read: inter frames are priced with the default probabilities instead of those of the state (encode_inter.cc:596), and their sub-block modes with the contexts of key frames (encode_intra.cc:129).
* C83: xc-zero-out-residues fails on each file with an inter frame that has no skip probability, since it marks macroblocks as skipped and does not set one — `C83_accepts_iff`.
* C84: the copy of a file does not keep the hash that the file expects, and the comparison does not look at it — `C84_copy_loses_hash`.
* C85: the inverse transforms with MMX and SSE2 keep 16 bits where the portable code has 32 after the second pass, so for some coefficients that a frame may hold (none that the encoder writes, `C85_encoder`, `C85_encoder_walsh`) the two builds decode different pixels — `C85_iwht_differs`, `C85_idct_differs`.
* C88: the golden and the alternate picture are not in the files, so neither tool sees that they differ — `C88_golden_not_compared`; comp-states takes the difference of the lengths and the limit of its loop as 32-bit numbers, so a file of one byte and one of 4 GiB and one byte can be called the same — `C88_large_files_called_same`; if only the states differ it divides zero by zero — `C88_compare_same_picture`.
* C89: assigning an `Optional` to itself, resetting it with its own value, or a constructor that throws in an assignment leads to the use or the destruction of an object that is not there — `C89_self_assignment`, `C89_self_reset`, `C89_throwing_assignment`.
* C91: the re-encoder with its video on standard input closes number 0 twice, and the second time ends the program from a destructor; in general the second close hits whatever file has the number by then — `C91_standard_input_closed_twice`, `C91_file_of_another_closed`.
* C92: an error of the connection while a picture is being encoded ends `main` while the detached worker thread still uses its variables (`C92_error_ends_under_worker`).
* C93: a clock that is set back between two packets ends the receiver by an assertion (`C93_clock_set_back`); after a silence of 2^37 microseconds the conversion of the average is undefined (`C93_long_silence`).  The first acknowledgement always carries the average 0 (`C93_first_is_zero`).
* C94: bytes depend on what the pool gives: token probability updates of another encoder's frame are sent again (`C94_bytes_differ`).  The theorem about pictures compares encoders that make the same choices; in a two-pass encoder the contexts of the second pass come through links between Y2 blocks that are renewed only after it, so there the choices themselves can depend on the recycled frame (these contexts are free in the model).
* C95: `Macroblock::accumulate_token_branches` leaves out the Y2 blocks (`C95_second_order_ignored`) and counts macroblocks that are skipped in the end, so a probability can be sent for a node of which no branch is written (`C95_skipped_counted`).
* C96: `Chunk::operator()( offset, length )` adds the two before it compares, so a length near 2^64 passes (`C96_part_wraps`; no caller in the code passes one: lengths come from at most 32 bits, or are the rest of a frame, for which the offset is compared first); `Chunk::bits` shifts `int`s (`C96_bits_undefined`); a file made shorter after opening raises `SIGBUS` (`C96_shortened`); an empty file cannot be opened (`C96_empty`).
* C97: `Address::operator==` compares as many bytes as the left address has, so that the empty address equals every address and not the other way round (`C97_equal_one_sided`); `ip_port` and `to_string` end with an exception for the addresses ::ffff:0:0:0/80, whose text looks like that of an address of IPv4 (`C97_text_throws`); a datagram for which the kernel gives no time gets the time 2^64 - 1, after which the receiver is ended by an assertion (`C97_no_time`).
* C98: while frames are coded from the first state the receiver forgets nothing and keeps a decoder per frame (`C98_receiver_keeps_all`), and from 16372 states on its acknowledgement is larger than a datagram can be, so that sending it fails and ends the receiver (`C98_ack_too_large`, `C97_send`); the sender keeps an encoder for every frame as long as no acknowledgement comes (`C98_sender_keeps_all`); an acknowledgement of 20 bytes makes the sender set aside 16 GiB (`C98_ack_memory`).
* C99: the encoder makes the padded copy of a reference with the shown size and fills it from the coded picture; unless the width is a multiple of 16, the last `memset` writes up to 15 bytes past the end of the heap block (`C99_overflow`). What the search reads is right all the same (`C99_search`). `safeRaster` in Model/Inter, on which C66, C69 and C85 rest, is the copy with the full margin; `C99_prediction` and `C99_search` carry their reads over to the copy that the encoder has.
* C100: one datagram of 23 bytes with the last frame number, from anybody, ends the receiver or makes it ignore all later packets (`C100_deaf`, `C100_deaf_between`). One acknowledgement with the number of the connection makes the sender ignore the genuine ones (`C100_sender_deaf`), allow zero bytes for the next frame (`C100_sender_starved`), or end because `encoders.at` finds no encoder for the state that it names (`C100_sender_ended`). Packets of earlier frames and acknowledgements of other connections change nothing (`C100_old`, `C100_foreign_acknowledgement`).
* C101: `xc-ssim` does not compare the sizes of the two videos: a smaller second one is read past its end (`C101_outside`), of a larger one the corner is compared (`C101_larger`). Different lengths go unnoticed (`C101_length_unnoticed`), pixels that are not shown take part (`C101_hidden`), and the help calls `ivf` the default format although without `-1` and `-2` the program throws (`C101_no_default`).
* C102: `xc-dissect --frame 18446744073709551615` prints all frames, since that number stands for no number (`C102_no_number`); a state file of another size than the video is outside the theorems.
* C103: `xc-enc --output-state` encodes the whole video and then fails; `-y 276` is the same as `-y 20` (`C103_index_wraps`); a state of another size is found out only at the first picture, when the file has been begun (`C103_wrong_size`). The encoder keeps the segmentation of the state it goes on from, while a decoder drops it at the first frame (`C17_segmentation_out_of_step`): such states are outside `C103_goes_on`, and the claim is partial. A chunk made from a dump names the decoder restored from it, in which the last picture has taken the place of the other two: `decode-bundle` refuses this chunk after the one it follows, although the decoder would show it correctly, unless the two decoders have the same hash (`C103_bundle`); from the dump it plays. Segments: at each frame the encoder's picture is the frame with the kept segments and the decoder's is the frame without them (`C103_segments`, for every state and frame); `C103_segments_drift` is a state file and a frame of which the decoder shows 132 where the encoder goes on from 4; they agree if segment 0 is neutral (`C103_segments_neutral`).
* C104: serdes-test draws one picture for all three references, so it cannot see that two of them are not saved (`C104_blind`); with a decoder whose pictures differ it fails.
* C105: `EncoderStateSerializer::write` never looks at its stream. `xc-dump` reports success when the output file cannot be opened (`C105_success_without_file`: the next program goes on from the state that was there before) and when the disk is full (`C105_success_on_full_disk`: the earlier state is lost).
* C85, C86: whole frames are equal in both builds when the sums of their residues fit in 16 bits and no macroblock with several vectors is predicted from the last lines of its reference (`Moderate`); this encoder's frames always are (C86), except for key frames in two passes with a macroblock that only the second pass predicts in sixteen blocks: its DC coefficients are sent unquantized (C70) and may be too large.
* C85: the filter along lines for blocks of four reads sixteen bytes of each line where it needs nine, so for a block whose last line is the picture's last it reads up to seven bytes past the end of the picture's storage — `C85_inter_past_end`. (`EdgeExtendedRaster` does not help: the check is for three pixels to the right.)

## Trusted base

Lean 4 kernel; axioms `propext`, `Classical.choice`, `Quot.sound` only. The correspondence between the model and
the C++ text is by reading; the code was not run. For C85 the meaning of the processor's instructions (Model/Sse) is by reading their manual.

The specifications of the format (C106–C114: Spec/ModeBits, Spec/CoefficientBits, Spec/HeaderBits, Spec/FrameBytes, Spec/Arithmetic, Spec/WholeFrame,
Spec/ReadFrame, Spec/SameFrame) are written after RFC 6386 from memory of its text, since there is no network. They share with the model the types
of headers, modes, vectors and blocks, and the tables of constant probabilities (key frame modes, counts to probabilities of vector modes, sub-vector
references, split kinds, update probabilities and defaults of coefficients and vectors): those numbers are copied from the code and are not checked
against the RFC. They also use the clamp of vectors and the update of the tables (C13) of the model. Trees, contexts, bands, the zigzag order, layouts,
neighbours, partitions and the arithmetic are stated anew.
