{"id": "C01", "title": "Arithmetic coder round trip", "statement": "If any sequence of bits, each with any 8-bit probability, is written with BoolEncoder::put and closed with finish(), then a BoolDecoder opened on the resulting bytes and asked with get() for the same probabilities in the same order returns exactly the bits that were written.", "quantifier": "every finite sequence of (bit, probability in 0..255), of any length", "why_tests_cant": "The coder carries unbounded state (carries may ripple through arbitrarily many bytes already written); a failing sequence may need an arbitrarily long run of 0xff bytes.", "anchors": ["src/encoder/bool_encoder.hh: BoolEncoder::put, flush, finish, add_one_to_output", "src/decoder/bool_decoder.hh: BoolDecoder::BoolDecoder, get, load_octet"]}
{"id": "C02", "title": "Arithmetic encoder is free of undefined behaviour", "statement": "While writing any sequence of bits and finishing, the encoder's carry propagation never walks off the front of the output buffer, every shift amount is inside its type's width, and the range register stays in 128..255 between writes.", "quantifier": "every finite sequence of (bit, probability in 0..255)", "why_tests_cant": "Carry propagation with nothing left to absorb it is undefined behaviour reached only by particular unbounded prefixes.", "anchors": ["src/encoder/bool_encoder.hh: add_one_to_output, put, flush, vp8_norm"]}
{"id": "C03", "title": "Arithmetic decoder is total on arbitrary bytes", "statement": "On any byte string whatsoever and any sequence of probabilities, BoolDecoder::get terminates, keeps its range register in 128..255 and its bit counter below 8, never reads outside the chunk, and behaves as if a complete chunk were followed by infinitely many zero bytes.", "quantifier": "every byte string and every sequence of probabilities in 0..255", "why_tests_cant": "Network input is adversarial; the number of byte strings is unbounded.", "anchors": ["src/decoder/bool_decoder.hh: BoolDecoder::BoolDecoder, get, load_octet", "src/util/chunk.hh: Chunk"]}
{"id": "C04", "title": "Tree-coded symbol round trip", "statement": "For every coding tree used by the codec (segment id, key-frame and inter-frame luma mode, chroma mode, sub-block mode, motion-vector reference, split partition, small motion vector, split motion-vector reference), writing any symbol of the tree under any probabilities and then reading with the same tree and probabilities gives the same symbol back and consumes exactly the bits written.", "quantifier": "every tree of the codec, every symbol of the tree, every probability vector, every following bit sequence", "why_tests_cant": "Probability vectors are 256^n many and the claim must compose with everything written before and after.", "anchors": ["src/encoder/encode_tree.cc: encode", "src/encoder/serializer.cc: encode(BoolEncoder, Tree)", "src/decoder/tree.cc: Tree::Tree", "src/decoder/modemv_data.cc: trees"]}
{"id": "C05", "title": "Frame header round trip", "statement": "Serializing a key-frame header or inter-frame header whose fields are in the ranges of their bit widths and parsing it back yields the identical header, and the parser consumes exactly the bits that were written.", "quantifier": "every key-frame and inter-frame header with in-range fields", "why_tests_cant": "The header has thousands of optional fields; combinations cannot be enumerated.", "anchors": ["src/decoder/frame_header.hh: KeyFrameHeader, InterFrameHeader", "src/decoder/vp8_header_structures.hh", "src/encoder/serializer.cc: encode overloads"]}
{"id": "C06", "title": "Motion vector round trip", "statement": "Every motion vector whose difference from its predictor is even in both components and of magnitude at most 2046 is recovered exactly by writing and reading it, under any motion-vector probabilities; anything outside that set is not representable in the bitstream.", "quantifier": "every pair of 16-bit components and every probability table", "why_tests_cant": "Two unbounded-looking nested bit encodings (short tree, long form with an implicit bit) with table-dependent probabilities.", "anchors": ["src/encoder/serializer.cc: MotionVector::write_component, write_tree", "src/decoder/macroblock.cc: MotionVector::read_component"]}
{"id": "C07", "title": "Coefficient token round trip", "statement": "For every block of 16 coefficients that the bitstream can represent, every block type, every starting context and every probability table, parsing the tokens written for the block gives back the same coefficients and the same has-nonzero flag.", "quantifier": "every coefficient block with magnitudes up to 2114, every block kind and context, every probability table", "why_tests_cant": "The coefficient space is 4229^16; end-of-block elision, zero runs and category boundaries interact.", "anchors": ["src/encoder/serializer.cc: Block::serialize_tokens", "src/decoder/tokens.cc: Block::parse_tokens", "src/decoder/tokens.hh"]}
{"id": "C08", "title": "Macroblock mode round trip", "statement": "The modes, segment id, skip flag, reference frame and motion vectors written for a macroblock are read back identically by the parser when both sides see the same neighbours and probabilities.", "quantifier": "every macroblock with consistent mode data, every neighbour context, every frame header and probability table", "why_tests_cant": "Contexts (above/left modes, neighbouring motion vectors) couple macroblocks across the whole frame.", "anchors": ["src/encoder/serializer.cc: Macroblock::serialize, KeyFrameMacroblock::encode_prediction_modes, InterFrameMacroblock::encode_prediction_modes", "src/decoder/macroblock.cc: Macroblock::Macroblock"]}
{"id": "C09", "title": "Whole-frame round trip", "statement": "Serializing a well-formed frame of any size and any number of coefficient partitions and parsing the bytes with a decoder holding the same probability tables reproduces the frame: header, every macroblock's modes and motion vectors, and every coefficient.", "quantifier": "every frame size, every partition count 1/2/4/8, every well-formed frame content, every starting probability table", "why_tests_cant": "Frames of arbitrary size couple all per-field codings and partition interleaving.", "anchors": ["src/encoder/serializer.cc: Frame::serialize, serialize_first_partition, serialize_tokens", "src/decoder/frame.cc: parse_macroblock_headers, parse_tokens", "src/decoder/decoder_state.hh: parse_and_apply"]}
{"id": "C10", "title": "Frame container round trip", "statement": "The bytes assembled for a frame (tag, start code, dimensions, partition sizes, partitions) are split by the reader into the same key/show flags, dimensions, first partition and coefficient partitions, provided the first partition is shorter than 2^19 bytes and every non-final coefficient partition shorter than 2^24 bytes.", "quantifier": "every first partition, every list of 1, 2, 4 or 8 coefficient partitions, every dimension below 2^14", "why_tests_cant": "Partition contents and sizes are unbounded.", "anchors": ["src/encoder/serializer.cc: make_frame", "src/decoder/uncompressed_chunk.cc: UncompressedChunk::UncompressedChunk, dct_partitions"]}
{"id": "C11", "title": "Container parser is safe on arbitrary bytes", "statement": "For every byte string, the container reader either rejects it or produces a first partition and remainder that are contiguous sub-ranges of the input; requesting the coefficient partitions either fails or yields sub-ranges of the input that are disjoint and in order; no byte outside the input is ever read.", "quantifier": "every byte string, every declared dimension, every requested partition count", "why_tests_cant": "Adversarial input; unbounded byte strings.", "anchors": ["src/decoder/uncompressed_chunk.cc", "src/util/chunk.hh"]}
{"id": "C12", "title": "Parsing arbitrary bytes yields only in-range values", "statement": "Whatever bytes a frame contains, every value the parser produces is inside its documented range: header fields within their bit widths, tree symbols among the tree's leaves, probabilities in 0..255, coefficients within the token range, motion-vector components bounded, so no table lookup by a parsed value is ever out of bounds.", "quantifier": "every byte string, every probability table, every frame size", "why_tests_cant": "Memory safety on adversarial input cannot be settled by sampling.", "anchors": ["src/decoder/tree.cc", "src/decoder/tokens.cc", "src/decoder/macroblock.cc", "src/decoder/vp8_header_structures.hh"]}
{"id": "C13", "title": "Probability tables persist only when asked", "statement": "After decoding a frame whose header clears refresh_entropy_probs, the decoder's persistent probability tables are what they were before an inter frame (the defaults for a key frame), while that frame itself is parsed with the updated tables; when the flag is set the updated tables persist.", "quantifier": "every header, every prior state, every history", "why_tests_cant": "History-dependent over unbounded frame sequences.", "anchors": ["src/decoder/decoder_state.hh: parse_and_apply", "src/decoder/probability_tables.cc"]}
{"id": "C14", "title": "A key frame resets the decoder", "statement": "After a key frame is decoded, the decoder's state and reference frames depend only on that key frame and the dimensions: any two decoders of the same dimensions, whatever their histories, become equal after decoding the same key frame, and produce equal output ever after on equal input.", "quantifier": "every pair of decoder histories, every key frame, every continuation", "why_tests_cant": "Quantifies over pairs of unbounded histories.", "anchors": ["src/decoder/decoder_state.hh: parse_and_apply<KeyFrame>", "src/decoder/frame.cc: KeyFrame::copy_to", "src/decoder/decoder.cc: Decoder::get_frame_output"]}
{"id": "C15", "title": "Reference buffer updates follow the header", "statement": "After decoding an inter frame, each of the last, golden and alternate buffers holds exactly what the header prescribes: the new picture when its refresh flag is set, otherwise the buffer named by its copy flag, otherwise its old content; after a key frame all three hold the new picture. The copies are carried out one after the other, alternate first: a golden buffer that is to be copied from the alternate one in a frame that also replaces the alternate one gets that replacement.", "quantifier": "every header flag combination, every prior buffers, every history", "why_tests_cant": "The three updates interfere; the property must hold along every history.", "anchors": ["src/decoder/frame.cc: copy_to", "src/decoder/decoder.cc: Decoder::decode_frame"]}
{"id": "C16", "title": "Decoder state save and restore", "statement": "Serializing a decoder and deserializing the bytes restores the dimensions, probability tables, segmentation, loop-filter adjustments and reference pictures exactly.", "quantifier": "every decoder state of every size", "why_tests_cant": "State contains variable-size maps and pictures and nested optional sections.", "anchors": ["src/decoder/decoder.cc: serialize, deserialize", "src/decoder/enc_state_serializer.hh", "src/decoder/probability_tables.cc"]}
{"id": "C17", "title": "Encoder and decoder stay in step", "statement": "After the encoder emits a frame, its own record of decoder state and reference pictures equals the state a receiving decoder has after decoding those bytes, if they were equal before and the state has no segmentation (the encoder never turns it on); hence their state hashes agree along any sequence of frames.", "quantifier": "every initial state, every sequence of emitted frames", "why_tests_cant": "Divergence (drift) is a property of unbounded histories.", "anchors": ["src/encoder/encoder.cc: Encoder::write_frame", "src/encoder/encode_intra.cc, encode_inter.cc: update_decoder_state", "src/decoder/decoder_state.hh: parse_and_apply"]}
{"id": "C18", "title": "A rejected frame leaves the decoder usable", "statement": "If decoding a byte string fails, the decoder's state and references are unchanged.", "quantifier": "every byte string, every decoder state", "why_tests_cant": "Exception safety over adversarial input.", "anchors": ["src/decoder/decoder.cc: get_frame_output", "src/decoder/decoder_state.hh: parse_and_apply", "src/decoder/uncompressed_chunk.cc"]}
{"id": "C19", "title": "State identity distinguishes adjustments", "statement": "Two decoders that compare equal have equal state hashes, and the inputs fed to the hash determine every component of the state, so that decoders which would decode a next frame differently are not given the same hash input.", "quantifier": "every pair of decoder states", "why_tests_cant": "Quantifies over all pairs of states.", "anchors": ["src/decoder/decoder.cc: FilterAdjustments::hash, Segmentation::hash, DecoderState::hash, Decoder::minihash", "src/decoder/probability_tables.cc: hash"]}
{"id": "C20", "title": "Packet wire round trip", "statement": "Every outgoing packet, turned into bytes and parsed by the receiver, has the same connection id, source and target state hashes, frame number, fragment number, fragment count, timing field and payload.", "quantifier": "every packet with fields in their wire widths and nonempty payload", "why_tests_cant": "2^200-sized header space, arbitrary payloads.", "anchors": ["src/net/packet.cc: Packet::Packet, Packet::to_string, put_header_field"]}
{"id": "C21", "title": "Acknowledgement wire round trip", "statement": "Every acknowledgement, turned into bytes and parsed, has the same connection id, frame and fragment numbers, average delay, current state and list of complete states.", "quantifier": "every acknowledgement with any number of complete states below 2^32", "why_tests_cant": "Unbounded list.", "anchors": ["src/net/packet.cc: AckPacket::AckPacket, to_string"]}
{"id": "C22", "title": "Packet parser is safe on arbitrary bytes", "statement": "Every byte string received as a packet or an acknowledgement is either rejected with an error or parsed without reading outside it, and an accepted packet has a nonempty payload and a fragment number below its fragment count.", "quantifier": "every byte string", "why_tests_cant": "Adversarial input.", "anchors": ["src/net/packet.cc: Packet::Packet(Chunk), AckPacket::AckPacket(Chunk)", "src/util/chunk.hh"]}
{"id": "C23", "title": "Fragmentation covers the frame", "statement": "Splitting a frame into packets yields fragments numbered consecutively from 0, each at most 1400 bytes and nonempty, all announcing the true total, whose payloads concatenated are the frame.", "quantifier": "every frame length from 1 to 65535*1400 bytes and every content", "why_tests_cant": "Boundary behaviour at every multiple of the fragment size.", "anchors": ["src/net/packet.cc: FragmentedFrame::FragmentedFrame, Packet::Packet, Packet::set_fragments_in_this_frame"]}
{"id": "C24", "title": "Reassembly is insensitive to order and duplication", "statement": "Feeding the packets of one frame to a receiver in any order, with any repetitions, makes the frame complete exactly when every fragment has arrived at least once, and then yields exactly the original frame.", "quantifier": "every frame, every delivery sequence (permutation with repetition and loss)", "why_tests_cant": "Delivery schedules are unbounded.", "anchors": ["src/net/packet.cc: FragmentedFrame::add_packet, complete, frame"]}
{"id": "C25", "title": "Partial reassembly is a prefix", "statement": "At every moment of reception, the partial frame handed to error concealment is a prefix of the original frame: exactly the bytes before the first missing fragment.", "quantifier": "every frame, every subset of fragments delivered in every order", "why_tests_cant": "Subsets and orders are exponential.", "anchors": ["src/net/packet.cc: FragmentedFrame::partial_frame"]}
{"id": "C26", "title": "Fragments of different frames are not mixed", "statement": "A packet whose connection id, source, target, frame number or fragment count disagrees with the frame being assembled is refused and leaves the assembly unchanged.", "quantifier": "every assembly state and every packet", "why_tests_cant": "State and packet spaces are unbounded.", "anchors": ["src/net/packet.cc: FragmentedFrame::sanity_check, add_packet"]}
{"id": "C27", "title": "Receiver progress is monotone", "statement": "Along any sequence of incoming packets the receiver's next frame number never decreases, each frame number is handed to the decoder at most once and in increasing order, and packets of earlier frames change nothing.", "quantifier": "every sequence of incoming packets (loss, duplication, reordering, interleaving of frames)", "why_tests_cant": "Schedules are unbounded.", "anchors": ["src/salsify/salsify-receiver.cc: main receive callback"]}
{"id": "C28", "title": "Advertised states are available", "statement": "Every complete state the receiver advertises in an acknowledgement is one it can still load, along any sequence of incoming packets; so a frame coded against an advertised state can be decoded against it.", "quantifier": "every sequence of incoming packets", "why_tests_cant": "Depends on unbounded histories of inserts and prunes.", "anchors": ["src/salsify/salsify-receiver.cc: decoders, complete_states"]}
{"id": "C29", "title": "Sender always finds its source encoder", "statement": "Along any sequence of encoded frames and acknowledgements from an honest receiver, the state the sender picks as the base for the next frame is always one for which it still holds an encoder.", "quantifier": "every sequence of frames sent and acknowledgements received", "why_tests_cant": "Unbounded interleavings of pruning and selection.", "anchors": ["src/salsify/salsify-sender.cc: encoder selection and cleanup"]}
{"id": "C30", "title": "Frame size control", "statement": "A frame that the sender transmits because it fits is never larger than the current size budget, is the candidate closest to the budget among those that fit, and a frame is skipped only if no candidate fits and fewer than the maximum number of consecutive frames have been skipped.", "quantifier": "every list of encode results and every budget, every history of skips", "why_tests_cant": "Unbounded histories.", "anchors": ["src/salsify/salsify-sender.cc: encode-job completion, target_size"]}
{"id": "C31", "title": "Acknowledgement processing is monotone", "statement": "The sender's record of the last acknowledged packet never moves backwards, whatever acknowledgements arrive, and the sequence number it computes for fragment f of frame n is the number of packets sent before it.", "quantifier": "every sequence of acknowledgements and frames sent", "why_tests_cant": "Reordered and duplicated acknowledgements.", "anchors": ["src/salsify/salsify-sender.cc: ack_seq_no, ack callback, cumulative_fpf"]}
{"id": "C32", "title": "Pacer preserves order and spacing", "statement": "Packets leave the pacer in the order they entered, due times never decrease, and consecutive queued packets are separated by at least the requested delay; the reported wait is zero exactly when the head is due.", "quantifier": "every interleaving of push and pop with any delays and any clock values", "why_tests_cant": "Unbounded interleavings.", "anchors": ["src/net/pacer.hh: Pacer"]}
{"id": "C33", "title": "IVF file round trip", "statement": "Writing any sequence of frames to an IVF file and reading it back gives the same dimensions, rate, frame count and frame contents, at every moment the file is closed.", "quantifier": "every list of frames each shorter than 2^32 bytes, every header", "why_tests_cant": "Unbounded sequences.", "anchors": ["src/util/ivf_writer.cc: IVFWriter", "src/util/ivf.cc: IVF"]}
{"id": "C34", "title": "IVF parser is safe on arbitrary bytes", "statement": "Every byte string opened as an IVF file is either rejected or has exactly the declared number of frames, each a sub-range of the file, no two overlapping.", "quantifier": "every byte string", "why_tests_cant": "Adversarial input.", "anchors": ["src/util/ivf.cc: IVF::IVF, IVF::frame"]}
{"id": "C35", "title": "Edge extension agrees everywhere", "statement": "Reading a reference picture through the edge-extending view, or through the pre-padded copy within its margin, gives the pixel at the nearest in-picture coordinate.", "quantifier": "every picture size, every content, every (possibly negative) coordinate", "why_tests_cant": "Unbounded sizes and coordinates.", "anchors": ["src/decoder/vp8_raster.hh: EdgeExtendedRaster::at", "src/decoder/safe_raster.cc: SafeRaster::copy_raster"]}
{"id": "C36", "title": "Inter prediction does not depend on the path taken", "statement": "For every block position, motion vector and reference picture, the fast in-picture prediction and the edge-extended prediction give the same pixels wherever the fast one is selected, so the result is the six-tap interpolation of the edge-extended reference; the fast path never reads outside the picture.", "quantifier": "every picture size and content, block size 4/8/16, block position, motion vector", "why_tests_cant": "Cross product of unbounded sizes, positions and vectors.", "anchors": ["src/decoder/prediction.cc: inter_predict, unsafe_inter_predict, safe_inter_predict"]}
{"id": "C37", "title": "Interpolation is exact on flat areas and on whole-pixel motion", "statement": "With whole-pixel motion the prediction is a copy of the displaced reference; on a constant reference every motion vector predicts the constant; every predicted pixel is in 0..255.", "quantifier": "every motion vector, every reference", "why_tests_cant": "Unbounded inputs.", "anchors": ["src/decoder/prediction.cc: sixtap_filters, unsafe_inter_predict"]}
{"id": "C38", "title": "Intra prediction uses only the edge", "statement": "Each intra prediction mode computes every pixel from the row above and the column to the left as defined by the format, stays in 0..255, reproduces a constant neighbourhood exactly, and uses the 127/129 defaults outside the picture.", "quantifier": "every mode, every edge content, every block position", "why_tests_cant": "256^33 edge contents.", "anchors": ["src/decoder/prediction.cc: predictors, dc_predict, true_motion_predict, intra_predict"]}
{"id": "C39", "title": "Loop filter leaves what it must not touch", "statement": "The loop filters change no pixel when the edge-difference test fails, change at most three pixels on each side of an edge, always produce pixels in 0..255, leave constant areas unchanged, and are skipped at filter level zero.", "quantifier": "every pixel neighbourhood, every limit and level", "why_tests_cant": "256^8 neighbourhoods times limits.", "anchors": ["src/decoder/loopfilter.cc", "src/decoder/loopfilter_filters.hh"]}
{"id": "C40", "title": "Loop filter strength is well defined", "statement": "For every header and adjustment, the filter level used is in 0..63 and the edge and interior limits fit in a byte, with the interior limit at least 1 and the edge limits as specified by the format.", "quantifier": "every level, sharpness and adjustment, every mode and reference", "why_tests_cant": "Adjustment sums range over negative and large values.", "anchors": ["src/decoder/loopfilter.cc: FilterParameters::adjust, SimpleLoopFilter::SimpleLoopFilter, NormalLoopFilter::NormalLoopFilter"]}
{"id": "C41", "title": "Inverse transforms on DC-only input", "statement": "A block whose only nonzero coefficient is the DC adds the same rounded constant to every pixel, for the inverse DCT and the inverse Walsh transform, with saturation to 0..255 and no intermediate overflow for in-range coefficients.", "quantifier": "every DC value and every prediction block", "why_tests_cant": "All pixel blocks.", "anchors": ["src/decoder/transform.cc: idct_add, iwht", "src/decoder/dct.cc"]}
{"id": "C42", "title": "Quantization error is bounded", "statement": "Dequantizing a quantized coefficient gives a value of the same sign, no larger in magnitude, differing from the original by less than one quantizer step; quantizing it again is idempotent.", "quantifier": "every 16-bit coefficient and every quantizer index", "why_tests_cant": "All coefficient/quantizer pairs and compositions.", "anchors": ["src/decoder/quantization.cc, quantization.hh", "src/encoder/encoder.cc: trellis_quantize", "src/decoder/block.hh: quantize, dequantize"]}
{"id": "C43", "title": "Quantizer lookup is always in the table", "statement": "For every header and segment adjustment, the computed quantizer factors come from in-range table entries and equal the value prescribed by the format: the index clamped to 0..127.", "quantifier": "every base index, every delta, every segment adjustment (absolute or relative)", "why_tests_cant": "Sums may be negative or above 127 and pass through an 8-bit type.", "anchors": ["src/decoder/quantization.cc: Quantizer::Quantizer", "src/decoder/frame.cc: calculate_segment_quantizers"]}
{"id": "C44", "title": "Probability estimation is usable", "statement": "The probability computed from branch counts is zero exactly when there is nothing to learn and otherwise in 1..255, the header update it triggers makes the persistent table hold that probability, and coding with it cannot fail.", "quantifier": "every pair of counts", "why_tests_cant": "Boundary counts including overflow.", "anchors": ["src/encoder/encoder.cc: calc_prob, optimize_probability_tables, optimize_prob_skip"]}
{"id": "C45", "title": "Target-size search returns a tested quantizer", "statement": "Encoding to a target size picks a quantizer index inside the search window; the estimated size at that index is within the target unless no tested index fits; if the estimate is monotone in the index the pick is the best quality that fits; the search always terminates.", "quantifier": "every size-estimate function, every target, every window", "why_tests_cant": "Ranges over all estimate functions.", "anchors": ["src/encoder/encoder.cc: encode_with_target_size"]}
{"id": "C46", "title": "Minimum-quality search honours the requested quality", "statement": "Encoding with a minimum SSIM picks the coarsest quantizer whose measured SSIM reaches the requested minimum.", "quantifier": "every SSIM-per-quantizer function and every requested minimum", "why_tests_cant": "Ranges over all quality functions.", "anchors": ["src/encoder/encoder.cc: encode_with_quantizer_search", "src/encoder/encode_intra.cc: encode_raster"]}
{"id": "C47", "title": "Trellis quantization stays near the plain quantizer", "statement": "The optimized coefficients differ from plain quantization by at most one step towards zero, also where the end of the block is given up, never change sign, and never increase magnitude.", "quantifier": "every coefficient block, every cost table, every context", "why_tests_cant": "All blocks times all cost tables.", "anchors": ["src/encoder/encoder.cc: trellis_quantize"]}
{"id": "C48", "title": "Two-dimensional storage is a faithful grid", "statement": "Writing one cell of a two-dimensional buffer changes that cell and no other, every in-range coordinate maps to a distinct in-range slot, and a cell's above/left/above-left/above-right neighbours are exactly the adjacent in-range cells or absent at the border.", "quantifier": "every width and height, every coordinate", "why_tests_cant": "All sizes.", "anchors": ["src/util/2d.hh: TwoDStorage, TwoD, TwoDSubRange"]}
{"id": "C49", "title": "Picture pool never aliases live pictures", "statement": "Whatever the pool reuses, every handle behaves as if it had its own picture: a new handle has the requested dimensions and belongs to no other live handle, what is written through one handle is seen through no other, a frozen picture never changes while a handle to it exists, the hash of a frozen picture is the hash of its content, nothing is used after it was freed, no assertion fails, and a program that asks for one size is never refused.", "quantifier": "every sequence (hence every interleaving by threads) of acquire, write, read, freeze, copy, hash of a frozen picture, release and switching of resizing", "why_tests_cant": "Unbounded operation histories.", "anchors": ["src/decoder/raster_handle.cc", "src/decoder/frame_pool.cc"]}
{"id": "C50", "title": "Motion-vector prediction context is bounded and clamped", "statement": "For every neighbourhood, the mode-context counters used to index the probability table are in range, and a clamped motion vector keeps the block within the permitted overhang and is unchanged if it already was.", "quantifier": "every neighbourhood of macroblocks, every frame size, every motion vector", "why_tests_cant": "All neighbourhoods and positions.", "anchors": ["src/decoder/scorer.hh: Scorer"]}
{"id": "C51", "title": "Raw video round trip", "statement": "Writing pictures as a YUV4MPEG file and reading it back gives as many pictures, restores every displayed pixel and replicates the border into the padding, whatever the recycled picture buffers contained. Every header of 16-bit numbers is read back as written. Any other input gives an error, the end of file or a picture made of its bytes, and no access outside of the picture.", "quantifier": "every list of pictures of one even size up to 65520x65520, every content, every former content of the buffers; every byte string for the last part", "why_tests_cant": "All sizes and contents.", "anchors": ["src/input/yuv4mpeg.cc", "src/util/raster.cc: display_rectangle_as_planar"]}
{"id": "C52", "title": "Chunk termination converges references", "statement": "Whenever the chunk terminator accepts a file, its output holds as many frames, all of which a new decoder decodes; afterwards all three reference pictures are equal, and the saved state (which keeps only one) is that decoder without loss. A file that can be decoded is accepted, and the output shows the same pictures and leads to the same probability tables, segmentation and filter adjustments.", "quantifier": "every IVF input whose frames fit the length fields of the container (always so up to 640x480)", "why_tests_cant": "All inputs.", "anchors": ["src/frontend/xc-terminate-chunk.cc", "src/decoder/decoder.cc: References::serialize"]}
{"id": "C53", "title": "Merging IVF files concatenates them", "statement": "The merged file contains the frames of the first input followed by the frames of the second, unchanged.", "quantifier": "every pair of IVF files of equal dimensions", "why_tests_cant": "All inputs.", "anchors": ["src/frontend/xc-merge.cc"]}
{"id": "C54", "title": "Event loop runs only ready actions", "statement": "Each poll either reports exit, a timeout or an error, or runs callbacks, in the order in which the actions were added and each at most once, only of actions that are not cancelled, were interested when the poll began, have not reached the end of their input, and whose descriptor is ready in their direction and has not failed; a poll that reports success ran all of those; a timeout changes nothing; an action whose callback cancelled it never runs again, whatever is polled, added or done later.", "quantifier": "every sequence of polls, readiness sets and callback results", "why_tests_cant": "All schedules.", "anchors": ["src/net/poller.cc: Poller::poll"]}
{"id": "C55", "title": "Playback skips to the first key frame and then shows every shown frame in order", "statement": "Opening a file for playback positions it at its first key frame, and advancing returns exactly the pictures of the frames marked shown, in file order, until the end or the first frame that cannot be decoded. The pictures do not depend on what the memory of a new decoder contained. A file that ends with hidden frames ends in an error, and so does opening a file with a damaged frame tag before the first key frame.", "quantifier": "every file, every frame content", "why_tests_cant": "Unbounded files.", "anchors": ["src/decoder/player.cc: FilePlayer, FramePlayer"]}
{"id": "C56", "title": "Decoder value register stays below its range", "statement": "On any byte string and any probabilities, the decoder keeps its value register below 256 times its range register, the condition under which the decoded bits are those of the arithmetic code.", "quantifier": "every byte string and every sequence of probabilities", "why_tests_cant": "Encoder output never violates it; only a hostile first byte does, and the invariant must hold after every prefix of every read sequence.", "anchors": ["src/decoder/bool_decoder.hh BoolDecoder::BoolDecoder", "src/decoder/bool_decoder.hh BoolDecoder::get"]}
{"id": "C57", "title": "Contexts of the Y2 block skip macroblocks without one", "statement": "The two neighbours that select the probabilities for a macroblock's Y2 block are the nearest macroblock above it in its column and the nearest to its left in its row that carry a Y2 block, however far away, or none.", "quantifier": "every frame size, every assignment of prediction modes", "why_tests_cant": "the neighbour can be arbitrarily far away, so no finite set of frames covers it", "anchors": ["src/decoder/frame.cc: Frame::relink_y2_blocks"]}
{"id": "C58", "title": "Segmentation and loop-filter adjustments follow the headers", "statement": "After a frame is decoded, segmentation is off if its header turned it off; otherwise the adjustments of the segments are those the header sends (zero for segments left out), or unchanged if it sends none, and each macroblock has the segment it carries, or else the one on record (3 if none is). Loop-filter adjustments are absent if the header turns them off, replaced where the header sends a value and otherwise keep their value.", "quantifier": "every decoder state, every frame that is accepted", "why_tests_cant": "State carried through arbitrary histories of partial updates.", "anchors": ["src/decoder/decoder_state.hh: Segmentation::update, FilterAdjustments::update, parse_and_apply", "src/decoder/macroblock.cc: update_segmentation"]}
{"id": "C59", "title": "The receiver survives what arrives on its port", "statement": "No datagram ends the receiver: it ignores those that are not packets of its connection, and goes on after those that are.", "quantifier": "every sequence of datagrams, of any content", "why_tests_cant": "The contents and orders of datagrams are unbounded.", "anchors": ["src/salsify/salsify-receiver.cc: main receive callback", "src/net/packet.cc: Packet, FragmentedFrame::add_packet"]}
{"id": "C60", "title": "A session does not end itself", "statement": "Whatever packets the network loses, duplicates or reorders between a sender and a receiver, and whatever acknowledgements it loses, neither program ends because of its own bookkeeping (a missing encoder or decoder, a failed assertion, an index out of range), and the receiver has a decoder for each state it advertises.", "quantifier": "every interleaving of encodes, packet deliveries, losses, duplicates and acknowledgements", "why_tests_cant": "Unbounded interleavings of two programs and a network.", "anchors": ["src/salsify/salsify-sender.cc: main loop", "src/salsify/salsify-receiver.cc: main loop"]}
{"id": "C61", "title": "An IVF file is readable at every moment", "statement": "If the program that writes an IVF file ends at any moment while a frame is being appended, the file opens and holds exactly the frames appended before.", "quantifier": "every history of appended frames, every frame being appended, every number of its bytes already written", "why_tests_cant": "All crash points.", "anchors": ["src/util/ivf_writer.cc: IVFWriter::append_frame", "src/util/ivf.cc: IVF"]}
{"id": "C62", "title": "The sender asks for legal quantizers", "statement": "In the adaptive modes each picture is encoded twice from the same state, once finer than the last frame sent (its quantizer index less 17) and once coarser (plus 23), and after any history the indices stay within 3..127.", "quantifier": "every sequence of encodes, skips and acknowledgements", "why_tests_cant": "Unbounded histories feed the last index back.", "anchors": ["src/salsify/salsify-sender.cc: increment_quantizer, encode jobs"]}
{"id": "C63", "title": "Pictures depend only on the stream", "statement": "Every frame the parser accepts, with references of the size of the video, decodes to a picture (no exception, no access outside a buffer), and the picture is a function of the frame, the decoder state and the reference pictures: not of what the recycled buffer it is written to held before. The picture a decoder outputs for a chunk is that picture.", "quantifier": "every accepted frame, every decoder state, all reference pictures of the right size, all contents of the output buffer", "why_tests_cant": "All frames times all earlier contents of a recycled buffer.", "anchors": ["src/decoder/frame.cc: Frame::decode, Frame::loopfilter", "src/decoder/macroblock.cc: reconstruct_intra, reconstruct_inter", "src/decoder/decoder.cc: Decoder::decode_frame"]}
{"id": "C64", "title": "A decoded picture is the one the format defines", "statement": "Before the loop filter, in every macroblock each pixel is the prediction the format defines from the pixels of the same picture above and to the left (intra) or of the reference named by the macroblock at the displaced position (inter), plus the inverse transform of the dequantized coefficients, saturated to 0..255; there is exactly one such picture; and the picture output is this one after the loop filter has been applied to the macroblocks in raster order with the levels the format defines.", "quantifier": "every accepted frame, every decoder state, all reference pictures", "why_tests_cant": "All frames and all references.", "anchors": ["src/decoder/frame.cc: Frame::decode, Frame::loopfilter", "src/decoder/macroblock.cc", "src/decoder/prediction.cc", "src/decoder/loopfilter.cc"]}
{"id": "C65", "title": "The loop-filter level is legal and locally best", "statement": "The level that the encoder picks is in 0..63, at most one away from the level of the frame before if there is one, better than every lower level it considered and at least as good as the next higher one.", "quantifier": "every quality-per-level function, every level of the frame before", "why_tests_cant": "Ranges over all quality functions.", "anchors": ["src/encoder/encoder.cc: apply_best_loopfilter_settings"]}
{"id": "C66", "title": "The motion search ends, stays inside the padded reference and predicts what the decoder predicts", "statement": "For every reference picture, macroblock, neighbourhood and cost function the search for a motion vector ends; every prediction it makes reads only pixels of the padded reference copy; the difference it finds can be written to the bitstream; and the prediction at the resulting vector is the prediction the decoder makes from the same reference with the same vector.", "quantifier": "all references, macroblock positions, neighbour vectors and cost functions; the last clause for pictures of up to 3968 pixels each way (beyond, the vector can wrap around and the read leaves the copy)", "why_tests_cant": "The search path depends on all pixels and all neighbour vectors; out-of-range reads show only for particular vectors at particular places.", "anchors": ["src/encoder/encode_inter.cc: diamond_search, luma_mb_inter_predict", "src/decoder/prediction.cc: inter_predict", "src/decoder/safe_raster.cc", "src/encoder/costs.cc: motion_vector_cost, sad_motion_vector_cost"]}
{"id": "C67", "title": "Whatever the encoder decides, the frame can be carried by the format and the picture it judged by is the picture that will be shown", "statement": "For every picture, quantizer index and sequence of decisions (modes, coefficient search contexts and costs, branch counts, filter level, one or two passes) the encoder makes a frame: nothing in it fails or overflows, every field is one the format can carry, and the picture from which the encoder measured the quality is exactly the picture that decoding the frame gives, whatever the recycled buffers contain.", "quantifier": "all pictures of sizes below 2^14, all quantizer indices in range, all reference pictures, all decisions, all contents of recycled buffers and of the trials of modes", "why_tests_cant": "Quantifies over all pictures, references and decisions.", "anchors": ["src/encoder/encode_intra.cc: encode_raster<KeyFrame>, luma_mb_intra_predict, chroma_mb_intra_predict", "src/encoder/encode_inter.cc: encode_raster<InterFrame>, luma_mb_inter_predict, chroma_mb_inter_predict", "src/decoder/frame.cc: decode, loopfilter"]}
{"id": "C68", "title": "The partitions of a frame fit their length fields", "statement": "The first partition of every frame that the encoder makes in pictures of up to 14400 macroblocks (2560x1440) is shorter than 2^19 bytes, so the 19-bit field of the frame tag holds its length; in general it takes at most 289 bits for each macroblock of a key frame and 3269 (224 without split vectors) of an inter frame, plus 14 for segment numbers, plus a constant for the header; the coefficients take at most 50975 bits for each macroblock. So every frame of a picture of up to 1200 macroblocks (640x480) fits the container, with segmentation and split vectors too.", "quantifier": "all frames, all probability tables", "why_tests_cant": "Worst case over all probabilities and modes.", "anchors": ["src/encoder/serializer.cc: serialize_first_partition, make_frame", "src/encoder/bool_encoder.hh"]}
{"id": "C69", "title": "An encoding session keeps the viewer's decoder in step, whatever calls are mixed", "statement": "For every sequence of calls on a new encoder (encode with a quantizer index, with a minimum quality, with a target size, in any order) each call gives a frame. A decoder of the same size, whatever it decoded before, accepts all of the frames, shows for each one exactly the picture the encoder judged it by, and after the first is equal to the decoder that the encoder exports. A call is refused for the size of its picture exactly when that size is not the encoder's.", "quantifier": "all sequences of calls, all pictures of the encoder's size, all quantizer indices that the format can carry, all target sizes and minimum qualities, all decisions within each call, all earlier histories of the decoder", "why_tests_cant": "Histories of calls are unbounded and each one depends on state left by those before it.", "anchors": ["src/encoder/encoder.cc: Encoder, encode_with_quantizer, encode_with_minimum_ssim, encode_with_target_size, write_frame", "src/encoder/encoder.hh: export_decoder", "src/decoder/decoder.cc: parse_and_decode_frame"]}
{"id": "C70", "title": "The second pass over a key frame never enlarges a coefficient", "statement": "When a two-pass encoder goes over a key frame again it chooses for each coefficient a value that is no further from zero than plain quantization gives, and of the same sign; so the second pass trades detail for size and never adds an error larger than dropping the coefficient.", "quantifier": "all blocks, quantizers, token costs and contexts", "why_tests_cant": "All residuals and cost tables.", "anchors": ["src/encoder/encode_intra.cc: luma_sb_apply_intra_prediction, luma_mb_apply_intra_prediction, chroma_mb_intra_predict, encode_raster<KeyFrame>", "src/encoder/encoder.cc: trellis_quantize"]}
{"id": "C71", "title": "Frames of which the end is missing can be played and do no lasting harm", "statement": "A decoder with error concealment decodes each frame that the ordinary decoder does not reject as invalid exactly as that one does. Of a frame of which only the beginning came it makes the same picture, references and tables as if the missing part had been zero bytes, however many; it refuses it only if the header says that the coefficients are in several partitions. If not even the fixed part of the frame came, it gives a gray picture and keeps references and probabilities. Whatever it is given it stays usable, keeps its references on failure, and the next whole key frame makes it equal to a decoder that lost nothing.", "quantifier": "all decoder states, all byte strings, all cut points, all histories of damage", "why_tests_cant": "Cut points, histories and contents are unbounded; the reading past the end goes through every parser of the format.", "anchors": ["src/decoder/uncompressed_chunk.cc: UncompressedChunk", "src/decoder/decoder_state.hh: parse_and_apply", "src/decoder/bool_decoder.hh: BoolDecoder", "src/decoder/macroblock.cc: Macroblock, decode_prediction_modes", "src/decoder/decoder.cc: get_frame_output", "src/salsify/salsify-receiver.cc: main"]}
{"id": "C72", "title": "What the viewer sees is what the sender encoded", "statement": "With the encoder at one end and the decoder with error concealment at the other, over a network that loses, repeats and reorders packets: each frame on the wire carries the bytes that an encoder made of a picture, and names the decoder states before and after. Whenever the receiver gives its decoder the whole of a frame, in the state that the frame names, the viewer sees exactly the picture that the sender judged the frame by, whatever was lost before; a frame of the first encoder is shown so by every decoder. Every decoder the receiver keeps is its first one or equal to the sender's record after one of the frames. If all packets of the next frame arrive, in any order and however often, and the receiver has the state it was coded against, then it is shown, and the state after it is kept and advertised. No beginning of a frame that arrives makes the decoder throw. All of this as long as no two different decoders that come about have the same 32-bit hash.", "quantifier": "all histories of encodes, losses, repetitions, reorderings and acknowledgements; all pictures; all decisions inside the encoder; all picture sizes up to 14400 macroblocks (14300 for delivery)", "why_tests_cant": "It combines every history of the network with every input of the codec.", "anchors": ["src/salsify/salsify-sender.cc: main, do_encode_job", "src/salsify/salsify-receiver.cc: main", "src/encoder/encoder.cc: encode_with_quantizer", "src/decoder/decoder.cc: get_frame_output", "src/net/packet.cc: FragmentedFrame"]}
{"id": "C73", "title": "Conservative frames can be decoded", "statement": "While the sender is in its conservative mode it codes each frame against the initial state or a state that the receiver has said it has. Whatever the network loses, duplicates or delays, the receiver still has this state when the frame arrives, so that a frame whose packets all arrive is decoded in the state it was coded against.", "quantifier": "all runs of a sender and a receiver, all losses, repetitions and delays of packets, all losses and delays of acknowledgements, all points in time at which the sender is conservative", "why_tests_cant": "The receiver forgets states and the sender learns of it later; whether the two ever disagree depends on the interleaving of losses, acknowledgements and the five second timer, of which there are unboundedly many.", "anchors": ["src/salsify/salsify-sender.cc: main, selected_source_hash, conservative_until, receiver_complete_states", "src/salsify/salsify-receiver.cc: main, complete_states, decoders"]}
{"id": "C74", "title": "A chunk that is re-encoded follows on the state it is re-encoded for", "statement": "Re-encoding a chunk of frames for the state in which another chunk ends writes one frame for each picture (but the first, if there is one extra). A decoder in that state refuses none of them and ends exactly in the state that is saved. Each inter frame is predicted as in the chunk (the same modes, references and motion vectors), with the same loop filter and the same updates of references; a key frame at the beginning becomes an inter frame; the last frame replaces all three references, so that the saved state is restored exactly and chunks re-encoded in processes of their own can be played one after the other. Frames that are not to be shown stay so, and segments are kept.", "quantifier": "all chunks (any bytes that can be read), all pictures, all decoder states, all decisions measured by the encoder, any number of chunks; for the composed program pictures of up to 1200 macroblocks", "why_tests_cant": "A chunk is re-encoded for every state that another worker may leave, and an error in one frame only shows in frames after it.", "anchors": ["src/encoder/reencode.cc: reencode, reencode_as_interframe, update_residues, update_macroblock", "src/frontend/xc-enc.cc: main", "src/encoder/encode_inter.cc: luma_mb_apply_inter_prediction, chroma_mb_inter_predict"]}
{"id": "C75", "title": "What is coded resembles what was given to be coded", "statement": "However badly the chosen modes, motion vectors and references predict a picture, and whatever the references show, no pixel of the decoded picture before the loop filter differs from the original by more than a bound that depends on the steps of the quantizer only (10 in luma and 8 in chroma for the finest one; for key frames coded in two passes, with steps twice as wide), and what is shown is within that and the reach of the loop filter (C76). The same holds for a frame whose residues are made anew for another original against other references.", "quantifier": "all originals, references, contents of the recycled picture, modes, motion vectors, trial orders, quantizer indices and filter levels; key frames coded in one pass, and those coded in two in which no macroblock is predicted in sixteen blocks by the second pass only (those are the subject of C70, where it fails), with all costs and contexts of the coefficient search, all inter frames, all frames updated by re-encoding", "why_tests_cant": "The error of a pixel sums the rounding of sixteen (or thirty-one) coefficients, three transforms and the prediction from pixels that are themselves decoded; tests measure averages on a few films.", "anchors": ["src/encoder/encode_intra.cc: luma_mb_apply_intra_prediction, chroma_mb_apply_intra_prediction", "src/encoder/encode_inter.cc: luma_mb_apply_inter_prediction, chroma_mb_inter_predict", "src/encoder/reencode.cc: update_residues", "src/decoder/transform.cc: fdct, wht, idct_add, iwht", "src/decoder/quantization.cc: quantize, dequantize"]}
{"id": "C76", "title": "The loop filter moves no pixel far", "statement": "The loop filter, run over a whole frame macroblock by macroblock, moves no pixel by more than an amount that depends on the highest level used only: nothing at level 0, at most 6 at level 1, 16 at level 5, and never more than 54.", "quantifier": "all frames, pictures, levels, sharpnesses, segmentations and adjustments", "why_tests_cant": "A pixel may be filtered up to four times, by its own and by two neighbouring macroblocks, each time on top of what the others left; the worst case has to hold for every picture.", "anchors": ["src/decoder/loopfilter.cc: SimpleLoopFilter, NormalLoopFilter", "src/decoder/frame.cc: loopfilter", "src/decoder/macroblock.cc: loopfilter"]}
{"id": "C77", "title": "The viewer sees what the camera saw, up to the quantizer", "statement": "Whatever calls are made on a new encoder, each gives a frame, and a decoder that is given the frames shows for each a picture that at every pixel differs from the one given to the call by at most a figure that depends on the quantizer index of the call alone (for the first frame of an encoder that makes two passes, with steps twice as wide); errors do not add up over the frames. The index is the one the call gives; for a target size it is the finest one whose estimated size fits, or the coarsest, among those that are allowed after the index of the frame before. Over a network that loses, repeats and reorders packets, the same holds between what the camera gave and what the viewer sees, for each frame that is decoded whole in the state it was coded against.", "quantifier": "all sequences of calls of all three kinds on a new encoder, all original pictures, one pass, or two of which the second keeps the types of the macroblocks (see C70), all choices of modes, vectors and filter levels, all contents of recycled buffers, all histories of the decoder; all schedules of the network", "why_tests_cant": "The bound is over all pictures and choices, and drift between encoder and decoder or accumulation over frames shows only in long runs.", "anchors": ["src/encoder/encoder.cc:Encoder::encode_with_quantizer", "src/encoder/encoder.cc:Encoder::encode_with_minimum_ssim", "src/encoder/encoder.cc:Encoder::encode_with_target_size", "src/salsify/salsify-sender.cc:main", "src/salsify/salsify-receiver.cc:main"]}
{"id": "C78", "title": "From file to file: encode, decode, get the video back", "statement": "A file of raw video with pictures of an even size, given to the encoder program in any of its three modes, gives a file; its header has the size and the number of the pictures; the decoder program accepts all of it and writes a file of raw video with as many pictures, in order, in which no byte differs from the byte of the input by more than the quantizer index used for that picture allows. With a list of target sizes, the index of the k-th picture is the best for the k-th size, or for the last one if there are fewer sizes than pictures. A file of compressed video that can be played to its end can be encoded again, and what the new file shows is that near to what the old file showed.", "quantifier": "all bytes of all pictures, any number of pictures below 2^32, all sizes within the limits of the format, all modes and their arguments, all decisions of an encoder that makes one pass, or two of which the second keeps the types of the macroblocks, all contents of recycled pictures and references on either side; all playable compressed files", "why_tests_cant": "It is one statement about two whole programs over all inputs: reader, encoder, container, parser, decoder and writer have to agree on every byte for every video, and the errors must not add up over any number of frames.", "anchors": ["src/frontend/xc-enc.cc: main, read_next_frame_size", "src/frontend/vp8decode.cc: main", "src/input/frame_input.hh: FrameInput", "src/input/yuv4mpeg.cc: YUV4MPEGReader, YUV4MPEGFrameWriter", "src/input/ivf_reader.cc: IVFReader", "src/util/ivf_writer.cc: IVFWriter"]}
{"id": "C79", "title": "Chunks of a video play as one stream, in one process or several", "statement": "Given the names of chunk files, one in each line, the bundle player writes one raw-video file with the pictures of the shown frames of all chunks, in order, up to the first frame that cannot be decoded; where the stream was cut does not matter, and two chunks give the same file as the two merged into one and decoded. A chunk that names another decoder state than the one that the frames before it lead to is refused, and nothing of it or after it is shown. The state saved at a frame of a chunk is that of a decoder that was given the frames up to and including this one (but for the golden and the alternate picture); if the decoder holds one picture at the end of a chunk, another process can go on from the saved state, and the two together show what one process shows.", "quantifier": "all streams of frames, decodable or not, all ways to cut them into chunks, all names without a line feed, all starting states, all frame numbers, all contents of recycled pictures, every hash function", "why_tests_cant": "The cuts, the streams and the states are unbounded, and the statement compares whole programs: the player on many files, the merger, the decoder program, the state dumper.", "anchors": ["src/frontend/decode-bundle.cc: main", "src/frontend/xc-dump.cc: main", "src/frontend/xc-merge.cc: main", "src/decoder/player.cc: FramePlayer", "src/decoder/decoder.cc: Decoder::minihash_match, Decoder::serialize, Decoder::deserialize"]}
{"id": "C80", "title": "The camera's pictures are what the camera saw, in order", "statement": "A frame taken from the camera shows, pixel for pixel, the brightness and colour that the driver's image has there, in each of the supported formats (packed 4:2:2, semi-planar and planar 4:2:0, motion JPEG), whatever the recycled memory held before; no image makes the program write outside the picture. Frames are handed out in the order in which they were captured, none twice and none skipped, as long as the driver returns its buffers in the order in which it was given them.", "quantifier": "every picture size up to 16383 by 16383, every image of that size in each format, every previous content of the recycled picture, every interleaving of captures and requests", "why_tests_cant": "needs camera hardware; the copy loops depend on the size and on the padding of the rows, and a ring of buffers can be read out of turn only after some histories", "anchors": ["src/input/camera.cc: Camera::get_next_frame, Camera::Camera", "src/input/camera.hh", "src/input/jpeg.cc: JPEGDecompresser::decode"]}
{"id": "C81", "title": "A played file arrives byte for byte", "statement": "The program that plays a raw-video file as a camera would writes exactly the frames of the file, byte for byte and in order, after one header that has the size of the file and the rate that was asked for; it writes nothing for a file without frames, and ends without an exception. If the file is cut off inside a frame, everything before that frame is still written.", "quantifier": "every even width and height up to 65520, every header, every sequence of frames, every rate, every previous content of the recycled pictures, every continuation after the whole frames", "why_tests_cant": "every picture passes through recycled, padded memory, so a stray byte can show for one size, one history or one content only", "anchors": ["src/salsify/fake-webcam.cc: main", "src/input/yuv4mpeg.cc: YUV4MPEGReader::get_next_frame, YUV4MPEGFrameWriter::write, YUV4MPEGHeader"]}
{"id": "C82", "title": "What the encoder takes a choice to cost is what it costs", "statement": "The numbers by which the encoder compares its choices are right. The cost of a mode, of a component of a motion vector and of a block of coefficients is, to the unit, the sum of the prices of the bits that the serializer then writes for it with the same probabilities, and the price of a bit is its information content in units of 1/256 of a bit. The search that lowers coefficients compares blocks by exactly the price of the bits written and by the squares of all errors made, so that it never returns a block that is costlier than one it compared it with.", "quantifier": "all probabilities, all modes and contexts, all vectors in the table, all blocks of all types, all neighbours, all factors and multipliers that the encoder uses", "why_tests_cant": "a wrong entry in a table of 4096, a wrong start in a tree or a term missing in a sum changes only which of many valid streams is produced: every output decodes, and no comparison of pictures shows it", "anchors": ["src/encoder/costs.cc: vp8_prob_cost, compute_cost, fill_token_costs, fill_mode_costs, fill_mv_ref_costs, fill_mv_component_costs, coeff_base_cost", "src/encoder/costs.hh: block_cost", "src/encoder/encoder.cc: trellis_quantize, update_rd_multipliers"]}
{"id": "C83", "title": "Taking the residues out of a file changes nothing else", "statement": "From a VP8 file that its decoder can read, the program that empties residues writes a VP8 file of the same dimensions and rate in which each frame says exactly what it said before - the same header, the same modes, the same motion vectors, the same segments - except that no macroblock has coefficients any more and each is marked as having none; a decoder reads the whole new file and ends in the same state. Every readable file can be processed.", "quantifier": "all files whose frames a decoder can read, of up to 1200 macroblocks; all headers, modes, probabilities and coefficients", "why_tests_cant": "the serializer chooses contexts, skip flags and probabilities from what was read; a frame without a skip probability, a macroblock without a second-order block or a table that is kept for one frame only shows the fault, and sample files do not contain all of these", "anchors": ["src/frontend/xc-zero-out-residues.cc: main, single_threaded_serialize", "src/encoder/encoder.cc: zero_out residue (661-680)", "src/decoder/block.hh: zero_out"]}
{"id": "C84", "title": "The small tools for IVF files keep, compare, select and measure what they say", "statement": "Copying a file gives a file with the same header and the same frames. Comparing two files says that they are the same exactly if headers and all frames are the same. Extracting writes exactly the key frames, in order and unchanged. The table of sizes gives each frame its number and length and the length of the file. Reading and writing again accepts each file that the encoder of this project wrote, from its beginning or from a given decoder state, and if it accepts a file then a decoder reads all its frames and what it writes holds the same frames.", "quantifier": "all byte strings that open as IVF files, all frames, all histories of an encoder", "why_tests_cant": "a field of the header that is not copied, a frame that is not compared or a pair of frames for which rewriting is not the identity shows only in files that have that field, that frame or that history", "anchors": ["src/tests/ivfcopy.cc: main", "src/tests/ivfcompare.cc: main", "src/tests/extract-key-frames.cc: main", "src/tests/roundtrip.cc: main", "src/frontend/xc-framesize.cc: main"]}
{"id": "C85", "title": "The code for vector instructions computes what the portable code computes", "statement": "Wherever the sources hold a version of a function for processors with MMX, SSE2 or SSSE3 beside the portable one, both give the same result: the measures of how much two blocks differ, dequantization, the transform of the differences of a block and its prediction, the Walsh transform, the inverse transforms, the prediction of a block from another picture, the prediction of a block from the pixels around it, and the loop filter. So a frame that one build encodes is decoded to the same pixels by the other.", "quantifier": "all blocks of pixels, all coefficients within the stated ranges, all steps of the quantizer", "why_tests_cant": "wrap-around and saturation in 16-bit lanes show only with rare combinations of extreme pixels or coefficients, out of 2^128 and more", "anchors": ["src/decoder/sad_sse2.asm: vpx_sad16x16_sse2", "src/encoder/variance_sse2.cc", "src/encoder/variance.cc: sad, sse, variance", "src/decoder/dct_sse2.asm: vp8_short_fdct4x4_sse2", "src/decoder/subtract_sse2.asm: vpx_subtract_block_sse2", "src/decoder/fwalsh_sse2.asm: vp8_short_walsh4x4_sse2", "src/decoder/iwalsh_sse2.asm: vp8_short_inv_walsh4x4_sse2", "src/decoder/idctllm_mmx.asm: vp8_short_idct4x4llm_mmx", "src/decoder/transform.cc: DCTCoefficients::idct_add, DCTCoefficients::iwht, DCTCoefficients::wht, DCTCoefficients::subtract_dct", "src/decoder/quantization.cc: DCTCoefficients::dequantize", "src/decoder/subpixel_ssse3.asm: vp8_filter_block1d16_h6_ssse3, vp8_filter_block1d8_h6_ssse3, vp8_filter_block1d4_h6_ssse3, vp8_filter_block1d16_v6_ssse3, vp8_filter_block1d8_v6_ssse3, vp8_filter_block1d4_v6_ssse3", "src/decoder/prediction.cc: inter_predict, unsafe_inter_predict", "src/decoder/intrapred_sse2.asm", "src/decoder/intrapred_ssse3.asm: vpx_d153_predictor_4x4_ssse3", "src/decoder/prediction.cc: intra_predict, dc_predict, true_motion_predict, horizontal_predict, vertical_predict", "src/decoder/loopfilter_sse2.asm", "src/decoder/loopfilter_block_sse2_x86_64.asm: vp8_loop_filter_bh_y_sse2, vp8_loop_filter_bv_y_sse2", "src/decoder/loopfilter.cc: NormalLoopFilter::filter"]}
{"id": "C86", "title": "A build with vector instructions and one without make and show the same frames", "statement": "A frame that this encoder makes is decoded to the picture that the encoder reconstructed, whether or not either of them was built with vector instructions; and the encoder, from the same picture, header, quantizer and choices, makes the same frame in both builds. (Not included: key frames in two passes with a macroblock that is predicted in sixteen blocks by the second pass only; see C70.)", "quantifier": "all pictures of every size up to 16383 by 16383, all choices of modes, all vectors the search can find, all quantizers, all references, all contents of registers and of the scratch picture before", "why_tests_cant": "a test compares the two builds on a few videos; a lane that wraps needs an unlikely combination of pixels, prediction and quantizer", "anchors": ["src/encoder/encode_intra.cc: encode_raster", "src/encoder/encode_inter.cc: encode_raster", "src/decoder/decoder.cc: Decoder::get_frame_output", "src/decoder/transform.cc", "src/decoder/prediction.cc", "src/decoder/loopfilter.cc", "src/encoder/variance_sse2.cc"]}
{"id": "C87", "title": "Estimating how large a frame would be changes nothing", "statement": "Before a frame of a target size is made, the encoder estimates sizes at some quantizers. An estimate always succeeds and leaves the encoder as it was, except for the header of the sample frame that it keeps for the next estimate; it is sixteen times the length of a frame of a quarter of the width and height, which a decoder of that size reads back, and so is between 1 and a bound that depends on the size of the picture only; it depends on no other part of the picture than the macroblocks whose column and row are multiples of four. The frames made by any calls on a new encoder are those made by the same calls with some estimates told, and so a decoder stays in step with the encoder.", "quantifier": "all pictures whose sizes are accepted by the encoder, all quantizer indices, all choices of modes and searches, all targets, all histories of calls on one encoder", "why_tests_cant": "that the encoder is as before must hold for every history and every picture; a test sees a drift only if the estimate of that picture changed a table that a later frame uses", "anchors": ["src/encoder/size_estimation.cc Encoder::estimate_size, estimate_frame_size", "src/encoder/encoder.cc Encoder::encode_with_target_size", "src/encoder/encoder.hh subsampled_key_frame_, subsampled_inter_frame_"]}
{"id": "C88", "title": "The tools that compare saved decoders say what differs", "statement": "Given two files that decoders were saved to, each of the two tools exits with status 0 exactly if the decoders are the same, so they agree. If not, one prints how many bits of the files differ and how many pixels of the last pictures differ and by how much, and the other prints one message for each part that differs: dimensions, each kind of probabilities, segmentation, loop-filter adjustments, each reference picture.", "quantifier": "all pairs of decoders of all sizes in all states, all hash functions that do not collide on the two pictures", "why_tests_cant": "a test compares a few pairs; that no difference is missed and no part is reported by mistake must hold for every pair of states", "anchors": ["src/frontend/comp-states.cc main", "src/frontend/xc-diff.cc main", "src/decoder/decoder.cc Decoder::operator==, DecoderState::operator==, References::operator==, Segmentation::operator==, FilterAdjustments::operator==", "src/decoder/raster_handle.cc VP8RasterHandle::operator==", "src/util/optional.hh Optional::operator=="]}
{"id": "C89", "title": "An optional value is there or not, and its object is destroyed once", "statement": "Whatever a program does with optional variables (constructing, copying, moving, assigning, initializing, clearing, resetting, reading, destroying them), each operation has the outcome that it would have for variables that hold a value or nothing; at any time the objects made and not yet destroyed are those the variables hold, so when all variables are gone each object has been destroyed exactly once, also if constructors of the value throw.", "quantifier": "all sequences of operations on any number of variables, all types of values, all choices of which constructors throw", "why_tests_cant": "an object destroyed twice or never shows only for some order of operations, or for a constructor that throws at a certain moment", "anchors": ["src/util/optional.hh Optional"]}
{"id": "C90", "title": "Bytes cross the system whole, whatever the pieces", "statement": "Whatever the sizes of the pieces in which the system moves bytes and whichever calls fail: a write that returns has sent its buffer, once and in order (or, if the caller asked for one piece, a beginning of it, and says what is left); a read of an exact length that returns gives exactly the next bytes; a line that is returned is what comes before the next end of line or the end of the file. Every exception has a reason: a system call failed or took nothing, the file ended, or the string to write is empty; and even then what was moved is a beginning. Without failures, pieces make no difference, and buffers written at one end arrive unchanged at the other.", "quantifier": "all contents, all lengths, all buffers, all sequences of answers of the system", "why_tests_cant": "short transfers and failures are decided by the system; a test on a local file sees whole transfers only", "anchors": ["src/util/file_descriptor.hh:FileDescriptor::read", "src/util/file_descriptor.hh:FileDescriptor::read_exactly", "src/util/file_descriptor.hh:FileDescriptor::getline", "src/util/file_descriptor.hh:FileDescriptor::write"]}
{"id": "C91", "title": "Every file is closed once, by the object that owns it", "statement": "Whatever a program does with descriptor objects (opening files, taking over numbers, moving, using and destroying objects in any order), every use of an object reaches the file it was made for, however the system reuses numbers; destroying the owner closes that file; no file is closed twice and no destructor ends the program.", "quantifier": "all sequences of operations, all numbers of files open at the start", "why_tests_cant": "which file a stale number reaches depends on the whole history of opens and closes", "anchors": ["src/util/file_descriptor.hh:FileDescriptor::FileDescriptor", "src/util/file_descriptor.hh:FileDescriptor::~FileDescriptor", "src/frontend/xc-enc.cc:main"]}
{"id": "C92", "title": "The threads of the sender take turns", "statement": "Whatever the order in which the event loop, the thread that runs the encodes of a picture and the encodes themselves advance: no two threads touch the same variable at once; a new picture is only taken up when the previous one is finished; the sender never stops with all threads waiting for one another and every picture is over after a bounded number of steps; when the program ends no thread is left using its variables.", "quantifier": "all interleavings of the threads, all results of the encodes, any number of pictures, with and without threads for the encodes", "why_tests_cant": "a test sees the interleavings that its machine happens to choose", "anchors": ["src/salsify/salsify-sender.cc:main"]}
{"id": "C93", "title": "The averages in the acknowledgements are averages", "statement": "However many packets arrive, with any times and waits, the receiver goes on, and the delay it reports is a number that never exceeds the longest delay between two packets less what the sender waited; and the average time of an encode that the sender keeps never exceeds a second.", "quantifier": "all sequences of packets and of encodes, all times, all roundings of the arithmetic", "why_tests_cant": "rounding errors add up over a stream of any length, and the failing cases need a clock set back or a day of silence", "anchors": ["src/salsify/salsify-receiver.cc:AverageInterPacketDelay", "src/salsify/salsify-sender.cc:AverageEncodingTime"]}
{"id": "C94", "title": "What other encoders did before does not show", "statement": "Encoders of one process share a pool of frames that are used again as they were left. Whatever other encoders have coded before, in whatever frames and pictures a new encoder gets from the pool, the same calls give the same frames, which decoders show as the same pictures.", "quantifier": "all histories of the pool, all sequences of calls, all pictures, all decisions of the encoders", "why_tests_cant": "the difference needs a particular earlier picture in the same process", "anchors": ["src/decoder/frame_pool.cc:FramePool::make_frame", "src/encoder/encoder.cc:optimize_probability_tables", "src/encoder/encode_intra.cc:encode_raster"]}
{"id": "C95", "title": "The probabilities sent are estimated from what is sent", "statement": "The branches of the token tree that the encoder counts in a picture, and from which it computes the probabilities it puts into the frame header, are exactly the branches that are then written into the frame, each as often as it is written; and for no picture size do the counters overflow.", "quantifier": "all frames, all coefficients, all modes, all tables, all picture sizes of the format", "why_tests_cant": "the counter and the writer are two copies of a tree of nested cases over all coefficient values and contexts; a branch counted wrongly still gives a valid stream", "anchors": ["src/encoder/serializer.cc:accumulate_token_branches", "src/encoder/serializer.cc:serialize_tokens", "src/encoder/encoder.cc:optimize_probability_tables", "src/encoder/encode_intra.cc:encode_raster", "src/encoder/encode_inter.cc:encode_raster"]}
{"id": "C96", "title": "What is read of a mapped file is what the file holds", "statement": "Whatever part of an opened file is asked for, at whatever offset and of whatever length, the bytes, numbers and groups of bits read from it are those of the file, or there is an exception; nothing outside the file is ever read, no matter how the objects that stand for files are opened, moved and destroyed, and when they are gone nothing stays mapped.", "quantifier": "all files, all offsets, lengths and bit positions, all sequences of opening, moving and destroying, all addresses that the kernel chooses", "why_tests_cant": "reads outside a mapping need particular offsets and addresses, and often go unnoticed", "anchors": ["src/util/chunk.hh:Chunk", "src/util/file.cc:File", "src/util/mmap_region.cc:MMap_Region"]}
{"id": "C97", "title": "Addresses and datagrams arrive as they were sent", "statement": "A datagram is received as a whole, with its own bytes, the address of its sender and the time at which it came, or there is an exception: on a network that loses, repeats and reorders, nothing is received that was not sent, and every datagram that fits is received. Addresses compare as equal exactly if they are the same, and the text of an address, with or without its port, stands for this address only.", "quantifier": "all datagrams, all control messages and flags, all orders of sending and arriving, all addresses and all texts that the C library gives them", "why_tests_cant": "the addresses and lengths at the limits are many, and a network in a test delivers everything in order", "anchors": ["src/net/socket.cc:UDPSocket::recv", "src/net/socket.cc:UDPSocket::send", "src/net/address.cc:Address::ip_port", "src/net/address.cc:Address::operator=="]}
{"id": "C98", "title": "The sender and the receiver keep a bounded number of states", "statement": "Whatever datagrams come, the receiver assembles at most one frame at a time, with fewer than 65536 pieces, and keeps decoders only for the first state and the states it advertises; the sender keeps encoders only for the first state and the states on its list. States before the one that the other side has shown to know are forgotten, so that the number of states, the memory and the length of an acknowledgement stay bounded, and a datagram never takes more memory than its length justifies.", "quantifier": "all datagrams and histories of frames, losses and acknowledgements, all codecs, all numbers of frames", "why_tests_cant": "the growth shows only in long sessions with particular losses, and the memory is taken by forged datagrams", "anchors": ["src/salsify/salsify-receiver.cc:main", "src/salsify/salsify-sender.cc:main", "src/net/packet.cc:AckPacket::AckPacket"]}
{"id": "C99", "title": "The padded copy of a reference stays in its memory", "statement": "For every size of picture, the copy of a reference that the encoder keeps for its search is made without writing outside of the memory that was set aside for it, whatever an older copy left there; it has, up to 256 pixels around the picture, the nearest pixel of the coded picture; and the search finds with it the vectors and predictions that the decoder will make.", "quantifier": "all sizes that a key frame can carry, all contents, all old copies, all macroblocks, vectors and costs", "why_tests_cant": "a write past the end of a heap block shows only with a checker, and only for sizes that are not multiples of 16", "anchors": ["src/encoder/safe_references.cc:SafeReferences::load", "src/decoder/safe_raster.cc:SafeRaster::copy_raster", "src/decoder/prediction.cc:inter_predict"]}
{"id": "C100", "title": "A stray datagram does not take over a session", "statement": "A datagram that did not come from the peer (an old packet, a packet or an acknowledgement that somebody else made) does not change what the sender and the receiver do with the genuine ones that follow.", "quantifier": "every reachable state of the sender and of the receiver, every datagram from a third party, every genuine datagram after it", "why_tests_cant": "A test sends the datagrams its author thinks of to the states it reaches; the statement is about every stray datagram at every point of every session.", "anchors": ["src/salsify/salsify-receiver.cc: main", "src/salsify/salsify-sender.cc: main, ack_seq_no, target_size", "src/net/packet.cc: Packet, AckPacket"]}
{"id": "C101", "title": "The comparison tool compares the two videos", "statement": "xc-ssim prints, for each pair of pictures of two videos, the similarity of what the two pictures show, reads only their memory, and reports videos that cannot be compared or do not have the same length. Without a format option it takes ivf files, as its help says.", "quantifier": "every two videos in either format, every size and length, with and without the option for all planes, every measure", "why_tests_cant": "A test compares a few videos that fit together; reads past the end of a smaller picture and a missing tail give no visible sign.", "anchors": ["src/frontend/xc-ssim.cc: main", "src/util/ssim.cc: ssim", "src/input/ivf_reader.cc, src/input/yuv4mpeg.cc: get_next_frame"]}
{"id": "C102", "title": "The description that xc-dissect prints is that of the frames", "statement": "For every file whose frames a decoder can read, starting without a state or with one of the size of the video, xc-dissect prints one section for each frame, in order, with its number, its length and whether it is a key frame, and for each macroblock the names of its modes, its vector and the picture it is predicted from, as a decoder reads them; with --frame only that section. It exits successfully exactly if all frames are readable, and no file makes it read a table of names outside its bounds.", "quantifier": "every file, every starting state of the size of the video, every frame number below 2^64-1", "why_tests_cant": "the names are indexed by values parsed from the file; whether an index can leave a table depends on every path of the parser, and the text of a frame on the state left by all frames before it", "anchors": ["src/frontend/xc-dissect.cc: main", "src/frontend/xc-dissect.cc: print_frame_info"]}
{"id": "C103", "title": "A video can be encoded in chunks, each from the saved state of the one before", "statement": "xc-enc with --input-state goes on from the state of any decoder (without segments) of the size of the video: it writes a file that names this state, and any decoder with the same last picture and the same entropy state shows a picture for each one given, near it. If a first chunk is encoded from nothing and each further chunk from the state that xc-dump has made of the chunk before, all programs succeed and the files, merged by xc-merge, play as one video with a picture near each one given. An input that fails leaves a readable file with the pictures before. The last of the options -s, -y and -F decides the mode.", "quantifier": "every size, every sequence of pictures, every number of chunks, every mode, every choice of the encoder, every state without segments and all memory of the decoder", "why_tests_cant": "the encoder goes on from any state that any history can lead to, and a difference between encoder and decoder may show up only many frames later", "anchors": ["src/frontend/xc-enc.cc: main", "src/encoder/encoder.cc: Encoder::Encoder( const Decoder & )", "src/frontend/xc-dump.cc: main", "src/frontend/xc-merge.cc: main"]}
{"id": "C104", "title": "A saved state has one fixed layout, and the randomised tests succeed for every draw", "statement": "The file a decoder is saved to consists of parts, each a tag, the true number of bytes in it and those bytes, in a fixed order and with fixed tags; it holds every value that fits its fields, also those no frame sets, and restoring gives them back. The tests serdes-test and encode-loopback succeed whatever their random engine gives and however many rounds are asked for. They draw only decoders whose three pictures are the same, so they cannot notice that the golden and the alternate picture are not saved.", "quantifier": "every decoder whose values fit the file, every sequence of random numbers, every number of rounds, every hash, all contents of recycled memory", "why_tests_cant": "a randomised test runs on a few draws out of an unbounded number, and says nothing about values its generator never draws", "anchors": ["src/tests/serdes-test.cc: main, run_one_test, random_decoder", "src/tests/encode-loopback.cc: main", "src/decoder/enc_state_serializer.hh: EncoderStateSerializer::put, EncoderStateDeserializer::get", "src/decoder/decoder.cc: Decoder::serialize, References::operator=="]}
{"id": "C105", "title": "A state file is whole, or it is refused", "statement": "If a program that saves a decoder is ended at any moment, or the system fails any of its calls, the file is afterwards what it was before, or restores exactly what was to be saved, or is refused when it is opened: a part of a state is never taken for a state. A dump that reports an error has not touched the file, and a dump that reports success has stored the state.", "quantifier": "every decoder, every number and size of the pieces in which the system stores bytes, every failing call, every moment at which the program is ended, every earlier content of the file", "why_tests_cant": "a test would have to fail or end the program at every call of every run, and for every state", "anchors": ["src/decoder/enc_state_serializer.hh: EncoderStateSerializer::write", "src/frontend/xc-dump.cc: main", "src/decoder/decoder.cc: Decoder::deserialize"]}
{"id": "C106", "title": "Modes and motion vectors are coded as the format says", "statement": "For every macroblock a frame can carry, in every neighbourhood, the bits written for its segment, its skip flag, its reference frame, its prediction modes and its motion vectors, and the probability each is coded with, are those the format gives: the code word of each symbol, the order of the symbols, and the context taken from the blocks and macroblocks above and to the left, with the vectors derived from three neighbours. The parser reads exactly these bits as that macroblock.", "quantifier": "every macroblock, every neighbourhood, every frame header, all probability tables", "why_tests_cant": "a round trip cannot see an error which the reader and the writer share, and test streams exercise few of the neighbourhoods", "anchors": ["src/decoder/macroblock.cc: KeyFrameMacroblock::decode_prediction_modes, InterFrameMacroblock::decode_prediction_modes, Scorer, read_subblock_inter_prediction, MotionVector::read_component", "src/encoder/serializer.cc: encode_prediction_modes, write_subblock_inter_prediction, encode", "src/encoder/encode_tree.cc: encode", "src/decoder/modemv_data.cc"]}
{"id": "C107", "title": "Coefficients are coded as the format says", "statement": "For every macroblock and whatever is around it, the bits written for its coefficients and the probability each is coded with are those the format gives: which blocks there are and in which order, the zigzag order of the coefficients, the token and the extra bits of each magnitude, the sign, the end of the block, and the context from the band, the value before and the blocks above and to the left. The parser reads exactly these bits as those coefficients.", "quantifier": "every macroblock with coefficients the format can carry, every neighbourhood, all probability tables", "why_tests_cant": "a round trip cannot see an error which the reader and the writer share, and there are too many blocks and contexts to try", "anchors": ["src/decoder/tokens.cc: Block::parse_tokens, TokenDecoder::decode", "src/decoder/tokens.hh: zigzag, coefficient_to_band", "src/decoder/macroblock.cc: Macroblock::parse_tokens", "src/encoder/serializer.cc: Block::serialize_tokens, Macroblock::serialize_tokens, TokenDecoder::encode"]}
{"id": "C108", "title": "Frame headers are laid out as the format says", "statement": "For every frame header the format and the decoder support, the bits written and the probability each is coded with are those the format gives: which fields there are and in which order, how wide each is, where the sign is, which fields are there only when a flag before them says so, and the probability of each flag that updates a probability. The parser reads exactly these bits as that header.", "quantifier": "every key frame header and every inter frame header in range", "why_tests_cant": "a round trip cannot see two fields swapped, or a width wrong, in the reader and the writer alike, and there are too many headers to try", "anchors": ["src/decoder/frame_header.hh: KeyFrameHeader, InterFrameHeader, UpdateSegmentation, ModeRefLFDeltaUpdate, QuantIndices, TokenProbUpdate, MVProbUpdate", "src/decoder/vp8_header_structures.hh: Flag, Unsigned, Signed, Flagged, Array", "src/encoder/serializer.cc: encode"]}
{"id": "C109", "title": "Frames are laid out as the format says", "statement": "Every frame that is assembled from a first partition and partitions of coefficients has exactly the bytes the format gives: the tag with the bit for key frames, the version, the bit for shown frames and the length of the first partition, the start code and the size in key frames, the first partition, the lengths of the partitions of coefficients but the last, and the partitions. The reader takes such a frame apart into these, and every frame it accepts as a whole is laid out so, with the size of the decoder.", "quantifier": "all first partitions and lists of partitions, sizes below 16384, and all byte strings given to the reader", "why_tests_cant": "a round trip cannot see an error which the reader and the writer share; the lengths and contents of partitions are unbounded", "anchors": ["src/encoder/serializer.cc: make_frame", "src/decoder/uncompressed_chunk.cc: UncompressedChunk::UncompressedChunk, dct_partitions", "src/util/chunk.hh: Chunk::bits"]}
{"id": "C110", "title": "The arithmetic coder is the one of the format", "statement": "The bits read from any string of bytes that does not begin with 0xff, asked with any probabilities, are those the format says are in it, computed with exact numbers of any size. The string written for any bits and probabilities, taken as a fraction, is the lower end of the range the format gives for them, and the format says these bits are in it.", "quantifier": "all byte strings, all sequences of bits and probabilities", "why_tests_cant": "a round trip cannot see an error which the reader and the writer share, such as another split of the range; strings and sequences are unbounded", "anchors": ["src/decoder/bool_decoder.hh: BoolDecoder::get", "src/encoder/bool_encoder.hh: BoolEncoder::put, finish"]}
{"id": "C111", "title": "A whole frame is serialized as the format says", "statement": "The bytes a key frame or an inter frame is serialized to are the frame of RFC 6386: the frame tag (and start code and size for key frames), then a first partition that is the arithmetic coding of the header followed by the modes and vectors of all macroblocks in raster order, each in the context of its true neighbours, then the partition sizes and the 1, 2, 4 or 8 coefficient partitions, where partition i of n is the arithmetic coding of the coefficients of the macroblocks in rows i, i+n, i+2n, ..., each in the context of its neighbours and of the closest earlier Y2 blocks of its column and row.", "quantifier": "all well-formed key and inter frames of every size, every number of partitions and, for inter frames, all saved probability tables", "why_tests_cant": "A test compares a few streams; an error made in both the reader and the writer passes every round trip, and the property ranges over all frames, sizes and tables.", "anchors": ["src/encoder/serializer.cc:KeyFrame::serialize", "src/encoder/serializer.cc:InterFrame::serialize", "src/encoder/serializer.cc:serialize_first_partition", "src/encoder/serializer.cc:serialize_tokens", "src/decoder/frame.cc:Frame::relink_y2_blocks"]}
{"id": "C112", "title": "A conforming frame is read, whoever wrote it", "statement": "If some bytes are a frame of RFC 6386 in the sense that its partitions, read as the format says, give the bits of the header, the modes and vectors and the coefficients of a well-formed frame, then the decoder reads exactly that frame from them. The bytes need not be those the serializer makes: another encoder may end its partitions differently.", "quantifier": "all well-formed key and inter frames, all byte strings that hold them, all decoder states for the size of the frame (and, for inter frames, with the tables the frame was written with)", "why_tests_cant": "Round trips only try the bytes this encoder makes; conformance streams are few, while the property ranges over all frames and all their encodings.", "anchors": ["src/decoder/decoder.cc:Decoder::parse_frame", "src/decoder/uncompressed_chunk.cc:UncompressedChunk::UncompressedChunk", "src/decoder/frame.cc:Frame::parse_macroblock_headers", "src/decoder/frame.cc:Frame::parse_tokens", "src/decoder/bool_decoder.hh:BoolDecoder::get"]}
{"id": "C113", "title": "The picture depends on the frame, not on its bytes", "statement": "For every decoder state there is one result of decoding a well-formed frame (the decoder afterwards, the shown flag, the picture), and it is the result for every byte string that holds that frame by the format. Two streams that hold the same frames frame by frame are decoded to the same pictures without an error and leave the same decoder, whatever encoder ended their partitions in whatever way.", "quantifier": "all decoders, all well-formed key and inter frames of the size of the decoder, all byte strings holding them, and all streams of such frames of any length", "why_tests_cant": "There are infinitely many byte strings for one frame and unboundedly many streams; a test compares a few of the bytes one encoder makes.", "anchors": ["src/decoder/decoder.cc:Decoder::get_frame_output", "src/decoder/decoder.cc:Decoder::decode_frame", "src/decoder/decoder_state.hh:DecoderState::parse_and_apply", "src/decoder/bool_decoder.hh:BoolDecoder::get"]}
{"id": "C114", "title": "Emitted streams conform, and any equivalent stream keeps step", "statement": "Every stream an encoder without segmentation emits holds its frames as the format says: each frame can be read from its bytes by the specification alone. Any other stream that holds the same frames, for instance one whose partitions were coded again by another arithmetic coder, is accepted by a decoder that starts as the encoder record, gives the same pictures and leaves the decoder equal to that record.", "quantifier": "all encoders without segmentation, all sequences of key and inter frames of any length, and all streams holding the same frames", "why_tests_cant": "Streams and their encodings are unbounded, and tests only decode the bytes this encoder made with the decoder of the same code base.", "anchors": ["src/encoder/encoder.cc:Encoder::write_frame", "src/encoder/serializer.cc:KeyFrame::serialize", "src/encoder/serializer.cc:InterFrame::serialize", "src/decoder/decoder.cc:Decoder::get_frame_output"]}
