{"id": "C01", "title": "Per-pixel coding is lossless", "statement": "For a bit depth of 2..15, the code bits that the difference, normalize and encode stages produce for a pixel against a prediction, followed by any other bits, can be decoded with the same prediction and the default Huffman table to exactly that pixel, leaving exactly the other bits.", "quantifier": "all bit depths 2..15, all pixel values and predictions below 2^bit_depth, all continuations of the bit stream", "why_tests_cant": "the space of (depth, pixel, prediction, continuation) is infinite; the tests try a few hundred random values", "anchors": ["migen_src/difference.py:Difference", "migen_src/normalize.py:Normalize", "migen_src/encode.py:SingleEncoder"]}
{"id": "C02", "title": "At 16 bits the coding is not lossless", "statement": "With bit_depth=16 losslessness fails: there are two different pixels that get the same code bits against the same prediction (differences beyond +-32768 are not reduced modulo 2^16, and class 16 carries no extra bits).", "quantifier": "existence of a pixel pair; losslessness for all pairs is the property being refuted", "why_tests_cant": "a random test with small differences never meets class 16", "anchors": ["migen_src/encode.py:SingleEncoder", "migen_src/normalize.py:Normalize", "migen_src/difference.py:Difference"]}
{"id": "C03", "title": "Default Huffman table is a prefix code", "statement": "No code of the default SSSS table (17 classes) is a prefix of another one, so class boundaries in the bit stream are unambiguous.", "quantifier": "all pairs of classes 0..16 and all continuations", "why_tests_cant": "a test decodes sample streams; unambiguity is about every continuation", "anchors": ["migen_src/encode.py:get_ssss", "migen_src/encode.py:init_huff_table"]}
{"id": "C04", "title": "SSSS class is the bit size of the difference", "statement": "For every signed difference d that two bit_depth-bit values can have, the normalize stage reports the class s with 2^(s-1) <= |d| < 2^s (0 for d=0), and the low s bits of its value output are d for d>=0 and d-1+2^s for d<0, as ITU-T T.81 prescribes.", "quantifier": "all bit depths >= 2 and all differences in (-2^bd, 2^bd)", "why_tests_cant": "the search tree for negative numbers has bit_depth leaves; tests sample values", "anchors": ["migen_src/normalize.py:build_neg_tree", "migen_src/normalize.py:SingleNormalizer"]}
{"id": "C05", "title": "Merging concatenates the codes of a step", "statement": "The merge stage's output code is the concatenation, in pixel order, of the code bits of all the pixels of the step, its length is the sum of the lengths, and valid and end flags arrive exactly log2(pixels per step) cycles later on the same word.", "quantifier": "all code words, all lengths up to the per-pixel maximum, every valid/end schedule, 2 and 4 pixels per step", "why_tests_cant": "widths, shifts and truncation interact; a sample cannot cover all length combinations", "anchors": ["migen_src/merge.py:SingleMerger", "migen_src/merge.py:Merge"]}
{"id": "C06", "title": "Prediction of the 4-pixel predictor", "statement": "For every row length and every valid/invalid schedule, the prediction delivered with pixel k of a frame is 2^(bd-1) in the first four columns of the first row, the pixel directly above in the first four columns of the other rows and the pixel four columns to the left elsewhere.", "quantifier": "all images, all row lengths that are multiples of 4, all positions of idle cycles, all depths", "why_tests_cant": "history property over unbounded frames and all stall patterns", "anchors": ["migen_src/predictor_p1_c4_px4.py:PredictorP1C4Px4", "migen_src/signals.py:Signals"]}
{"id": "C07", "title": "Prediction of the 1/2-pixel predictor", "statement": "Same claim as for the 4-pixel predictor, for the component-interleaved predictor that handles 1 or 2 pixels per cycle, for every row length >= 4 that is a multiple of 4.", "quantifier": "all images, row lengths, idle cycles, depths, 1 and 2 pixels per step", "why_tests_cant": "the wrap-around counters keep phase over unbounded history", "anchors": ["migen_src/predictor_p1_c4_pix1_2.py:PredictorP1C4Pix12", "migen_src/signals.py:Signals"]}
{"id": "C08", "title": "Row and frame boundaries are flagged exactly", "statement": "With width a multiple of pixels_per_step, width >= 2*pixels_per_step and (height >= 2 or width >= 3*pixels_per_step), the frame tracker raises new_row exactly for the step that starts a row and end_of_frame exactly from the last step of the frame on, however the input steps are spaced in time.", "quantifier": "all such widths and heights below 2^16, all schedules of input steps", "why_tests_cant": "counter behaviour over frames of up to 2^32 pixels and all stall patterns", "anchors": ["migen_src/signals.py:Signals"]}
{"id": "C09", "title": "Degenerate frame sizes are not tracked", "statement": "For a frame of a single row of two steps (height 1, width 2*pixels_per_step), end_of_frame is not raised for the last step nor at any of the next 130000 accepted steps, however they are spaced; for rows of a single step (width = pixels_per_step) new_row is not raised for the second row.", "quantifier": "all schedules with any number of idle cycles between steps", "why_tests_cant": "a never claim over all stall patterns and long runs", "anchors": ["migen_src/signals.py:Signals"]}
{"id": "C10", "title": "The encoding pipeline is a fixed-latency map", "statement": "Through signals, predictor, difference, normalize, encoder and merge, every accepted step produces exactly one output word, a fixed number of cycles later (5, 6, 7 for 1, 2, 4 pixels per step), in order, whose code bits are the T.81 predictor-1 code of that step's pixels; the end flag accompanies exactly the word of the last step.", "quantifier": "all images, all schedules of valid cycles, all depths 2..15 and 1, 2 or 4 pixels per step", "why_tests_cant": "unbounded histories with arbitrary bubbles", "anchors": ["migen_src/integration_1.py:Integration1"]}
{"id": "C11", "title": "FIFO order and content", "statement": "The buffered FIFO used in both pipelines delivers exactly the written words in write order, never drops or duplicates one while it is not full, and its level is the number of words inside.", "quantifier": "all depths >= 2, all interleavings of writes and reads", "why_tests_cant": "all interleavings over unbounded time", "anchors": ["migen_src/lj92_pipeline_fifo.py:LJ92PipelineFifo", "migen_src/converter_fifo.py:ConverterFifo", "verilog_src/lj92_pipeline_fifo.v"]}
{"id": "C12", "title": "The pipeline FIFO never overflows", "statement": "Whatever the producer does and however long the consumer stalls, the FIFO behind the encoding pipeline never receives a word when it is full: the ready signal given to the camera is withdrawn early enough for everything in flight.", "quantifier": "all input and back-pressure schedules, all depths >= 25", "why_tests_cant": "needs an invariant over in-flight words; worst-case schedules are not found by sampling", "anchors": ["migen_src/integration_2.py:Integration2", "migen_src/lj92_pipeline_fifo.py:LJ92PipelineFifo.elaborate"]}
{"id": "C13", "title": "The converter keeps the bit stream", "statement": "The converter cuts each variable-length code word into pieces of at most converter bits (the final piece short) such that the concatenated pieces are exactly the concatenated codes, in order, and the end flag is on the last piece of the last word.", "quantifier": "all code words, lengths, FIFO contents, and back-pressure schedules, all (total bits, converter bits) combinations", "why_tests_cant": "piece counts, bursts and latches interleave over unbounded time", "anchors": ["migen_src/converter.py:Converter"]}
{"id": "C14", "title": "The converter FIFO never overflows", "statement": "Whatever the consumer does, the FIFO behind the converter never receives a piece when it is full.", "quantifier": "all schedules, all depths permitted by the module's assertion", "why_tests_cant": "burst length, latency and registered close_full interact", "anchors": ["migen_src/converter_fifo.py:ConverterFifo", "migen_src/converter.py:Converter", "migen_src/integration_2.py:Integration2"]}
{"id": "C15", "title": "The bit packer emits the stream in fixed words", "statement": "The variable-to-constant packer emits exactly the concatenation of the incoming pieces, out_bits per word MSB first; the last word is zero-padded on the right and is the only one flagged end.", "quantifier": "all piece sequences, stall patterns of producer and consumer, all out_bits and buffer sizes permitted by the assertions", "why_tests_cant": "two cooperating state machines with a register and a buffer over unbounded time", "anchors": ["migen_src/vbits_to_cbits.py:InputHandler", "migen_src/vbits_to_cbits.py:OutputHandler", "migen_src/vbits_to_cbits.py:VBitsToCBits"]}
{"id": "C16", "title": "Core output is a prefix of the image's code", "statement": "At every moment and for every schedule, the bits of the words the core's consumer has accepted are a prefix of the T.81 code of the pixels the core has accepted (no corrupted, lost, repeated or reordered bits).", "quantifier": "all images, frame sizes, configurations, producer and consumer schedules, run lengths", "why_tests_cant": "whole-pipeline property over arbitrary schedules", "anchors": ["migen_src/integration_3.py:Integration3", "migen_src/integration_2.py:Integration2", "migen_src/integration_1.py:Integration1"]}
{"id": "C17", "title": "Core output is complete at end", "statement": "When the core delivers a word flagged end, exactly width*height pixels have been accepted and the delivered words up to it are exactly the zero-padded packing of the code of the whole frame.", "quantifier": "all images, frame sizes, configurations, schedules", "why_tests_cant": "whole-pipeline property over arbitrary schedules", "anchors": ["migen_src/integration_3.py:Integration3"]}
{"id": "C18", "title": "The image can be recovered from the core's output", "statement": "Decoding the words delivered up to the end-flagged one with predictor 1, four components and the default table yields exactly the pixels that were accepted.", "quantifier": "all images of every legal size, all configurations with depth 2..15, all schedules", "why_tests_cant": "universally quantified over images", "anchors": ["migen_src/integration_3.py:Integration3", "liblj92/lj92.c:parseScan"]}
{"id": "C19", "title": "No pixel is accepted after the frame", "statement": "Once the last step of the frame has been accepted, nready stays high until reset, so no pixel of the next frame can be mixed into this one; and the core is not ready in the first eight cycles after reset.", "quantifier": "all schedules of any length", "why_tests_cant": "never claim over unbounded time", "anchors": ["migen_src/integration_2.py:Integration2.elaborate"]}
{"id": "C20", "title": "A delivered word is stable until taken", "statement": "When the core (or the FF-stuffing stages) presents a valid word and the consumer is busy, the same word with the same end flag is presented in the next cycle.", "quantifier": "all states reachable under any schedule", "why_tests_cant": "stability must hold in every reachable state", "anchors": ["migen_src/vbits_to_cbits.py:OutputHandler", "migen_src/fix_0xff.py:Fix0xFF", "migen_src/fix_0xff2.py:Fix0xFF2"]}
{"id": "C21", "title": "The core does not deadlock", "statement": "In every infinite schedule in which the consumer is ready infinitely often and the producer offers pixels infinitely often (with no other assumption on either), the core delivers the end-flagged word of the frame after finitely many cycles.", "quantifier": "all legal configurations, frame sizes, images and fair infinite schedules", "why_tests_cant": "liveness from every reachable state cannot be sampled", "anchors": ["migen_src/integration_3.py:Integration3"]}
{"id": "C22", "title": "FF stuffing inserts a zero byte after each FF", "statement": "The first stuffing stage turns each accepted 16-bit word into its bytes in order with 00 inserted after every FF byte, delivers one packet per accepted word in order, and carries the end flag with the last packet.", "quantifier": "all words, all handshake schedules", "why_tests_cant": "skid-buffer hand-shake over arbitrary schedules", "anchors": ["migen_src/fix_0xff.py:Fix0xFF"]}
{"id": "C23", "title": "Byte repacking keeps the byte stream", "statement": "The second stuffing stage emits exactly the bytes it received, two per word in order, padded with one zero byte if the count is odd; only its last word is flagged end.", "quantifier": "all packet sequences of 2..4 bytes, all handshake schedules", "why_tests_cant": "buffer occupancy and state machine over arbitrary schedules", "anchors": ["migen_src/fix_0xff2.py:Fix0xFF2"]}
{"id": "C24", "title": "Stuffing is invertible and hides markers", "statement": "Removing the byte after each FF from a stuffed byte stream gives back the original bytes, and in a stuffed stream every FF byte is followed by 00, so no marker can appear in the entropy-coded data.", "quantifier": "all byte sequences", "why_tests_cant": "all byte strings", "anchors": ["migen_src/fix_0xff.py:Fix0xFF", "liblj92/lj92.c:nextdiff"]}
{"id": "C25", "title": "Frame markers surround the data", "statement": "The marker stage emits eight FFFF words, then exactly the accepted frame words, then eight FFFF words of which exactly the last is flagged end; after a forced end it emits eight FFFE words instead, again the last one flagged.", "quantifier": "all frames of at least two words, all handshake schedules, all times of force_end", "why_tests_cant": "state machine against arbitrary schedules", "anchors": ["migen_src/markers.py:Markers"]}
{"id": "C26", "title": "Markers violate word stability", "statement": "The marker stage's valid output depends combinationally on the consumer's busy signal at the last start-marker word: a reachable state and input exist where a word is valid with a ready consumer and not valid with a busy one.", "quantifier": "existence of a reachable state", "why_tests_cant": "the property refuted (stability for all states) is universal", "anchors": ["migen_src/markers.py:Markers.elaborate"]}
{"id": "C27", "title": "Forced end fires after the programmed time", "statement": "Counting from the first cycle with a valid pixel, force_end is raised exactly allowed_cycles+3 cycles later, whatever happens to the input in between, and stays high until reset; it is never raised before the first valid pixel.", "quantifier": "all allowed_cycles values below 2^24, all input schedules", "why_tests_cant": "timing over up to 2^24 cycles and any schedule", "anchors": ["migen_src/force_end.py:ForceEnd"]}
{"id": "C28", "title": "Auto reset pulse", "statement": "The reset pulse occurs in the cycle after an end-flagged word is transferred on the output handshake and in no other cycle.", "quantifier": "all schedules", "why_tests_cant": "an iff over all histories", "anchors": ["migen_src/auto_reset.py:AutoReset"]}
{"id": "C29", "title": "Reset starts a fresh frame", "statement": "After the automatic reset the core behaves exactly as after power-up: what it delivers for the next frame does not depend on the previous frame in any way.", "quantifier": "all pairs of frames and schedules", "why_tests_cant": "independence from all previous histories", "anchors": ["migen_src/auto_reset.py:AutoReset", "migen_src/beta_integration.py:BetaIntegration"]}
{"id": "C30", "title": "Beta core end to end", "statement": "The words the beta core delivers from reset up to its end-flagged word are eight FFFF words, the byte-stuffed code of the accepted frame padded to 16 bits, and eight FFFF words, unless the forced end fired; un-stuffing and decoding the middle gives the image.", "quantifier": "all images of legal size, all producer and consumer schedules", "why_tests_cant": "whole-core property over arbitrary schedules", "anchors": ["migen_src/beta_integration.py:BetaIntegration"]}
{"id": "C31", "title": "Beta core may send an extra end word", "statement": "There is a schedule in which the beta core transfers two end-flagged words for one frame, because in the reset cycle the marker stage still presents its last word.", "quantifier": "existence of a schedule", "why_tests_cant": "the property refuted (one end word per frame) is universal over schedules", "anchors": ["migen_src/markers.py:Markers", "migen_src/auto_reset.py:AutoReset", "migen_src/beta_integration.py:BetaIntegration"]}
{"id": "C32", "title": "Micro core never ends normally", "statement": "In the micro core the end flag of the packer is not connected to the stuffing stages, so in any run without a forced end no end-flagged word is delivered; it also drops frame words while it sends the start marker, so two different frames can give the same output even with an always-ready consumer.", "quantifier": "all schedules of any length", "why_tests_cant": "never claim over all runs", "anchors": ["migen_src/micro_integration.py:MicroIntegration"]}
{"id": "C33", "title": "64-to-32 bit unpacker (FIFO source)", "statement": "The unpacker that feeds the beta core from a 64-bit FIFO delivers for each popped word its upper and then its middle 24 pixel bits, exactly once and in order.", "quantifier": "all word sequences and handshake schedules", "why_tests_cant": "all interleavings", "anchors": ["migen_src/b64_b32_2.py:B64B32_2"]}
{"id": "C34", "title": "64-to-32 bit unpacker (buffered)", "statement": "The buffered unpacker delivers for each accepted 64-bit word its two halves exactly once and in order and never accepts a word it has no room for.", "quantifier": "all word sequences and handshake schedules", "why_tests_cant": "two FIFOs and two state machines over all interleavings", "anchors": ["migen_src/b64_b32.py:B64B32"]}
{"id": "C35", "title": "16-to-64 bit packer", "statement": "After its first cycle out of reset, the 16-to-64-bit packer delivers the accepted 16-bit words four per 64-bit word in order, holding back at most two complete words, shows a word unchanged until it is taken, and with a ready consumer gives every complete word and becomes ready again after boundedly many cycles; a word offered in the first cycle is accepted and lost; its end flag is not raised before seven 64-bit words have been given.", "quantifier": "all schedules", "why_tests_cant": "double buffering over all interleavings", "anchors": ["migen_src/b16_b64.py:B16B64"]}
{"id": "C36", "title": "16-to-40 bit packer loses bits", "statement": "The 16-to-40-bit packer used for LVDS output is lossless and in order when its consumer is always ready, but not otherwise: its carry register for the third word's second byte is one bit wide, so exactly the upper seven bits of the low byte of a third word accepted while the other buffer is occupied are lost and two different inputs give the same output; and a core reset between frames can make it give a stale word.", "quantifier": "all schedules for the exact loss and the lossless case; existence of schedules and inputs for the loss", "why_tests_cant": "the property refuted is universal", "anchors": ["migen_src/b16_b40.py:B16B40"]}
{"id": "C37", "title": "Register access over AXI-lite", "statement": "An AXI-lite write of the height/width word or the allowed-cycles word with a byte strobe changes exactly the strobed bytes of exactly that register; a later read returns the current value; accesses to unmapped addresses get a decode error and change nothing; every read and write a patient master starts is completed, with a read only answered once the master is ready.", "quantifier": "all addresses, data, strobes, orders of address/data valid, and histories", "why_tests_cant": "all operation sequences", "anchors": ["migen_src/core_axi_lite.py:CoreAxiLite"]}
{"id": "C38", "title": "Writing the Huffman table over AXI-lite", "statement": "A fully strobed AXI-lite write of the low word of a table entry is read back truncated to the table width and changes no other entry. (Limits of the code: a write of the high word of an entry stores zeros, and a low-word write clears the high part of the entry, so entries wider than 32 bits cannot be programmed.)", "quantifier": "all entries, data and histories of bus operations", "why_tests_cant": "all operation sequences", "anchors": ["migen_src/core_axi_lite.py:CoreAxiLite", "migen_src/encode.py:SingleEncoder"]}
{"id": "C39", "title": "DMA register access over AXI-lite", "statement": "DMA control registers 0..2 are read/write over AXI-lite, registers 3..11 read-only; writes to read-only registers get a slave error and change nothing; a read or write by a master that keeps its request and is ready for the response completes within a fixed number of cycles.", "quantifier": "all addresses, data, strobes and histories", "why_tests_cant": "all operation sequences", "anchors": ["migen_src/dma_axi_lite.py:DMAAxiLite"]}
{"id": "C40", "title": "Address generator sequence", "statement": "From reset, the addresses taken by the bursts are base, base+shift, base+2*shift, ... (mod 2^32), where base is the start address shown in the cycle before the first one is taken; later changes of the start address and stalls change nothing. The address is valid from the first cycle on and never becomes invalid.", "quantifier": "all bases, counts, schedules", "why_tests_cant": "unbounded counting", "anchors": ["migen_src/address_generator.py:AddressGenerator"]}
{"id": "C41", "title": "Memory reader never overruns its FIFO", "statement": "With any AXI read slave that answers 16-beat bursts (any delays, any data) and any consumer, no returned beat is dropped: the words taken from the FIFO are exactly the transferred beats, once and in order; the FIFO never holds more than 28 of 32 words, at most 8 bursts are outstanding and the reader's count of unfinished bursts is exact. With a slave that eventually accepts every request and answers it, and a consumer that keeps taking words, ever more beats arrive. (Limit of the code: rlast held high without rvalid, which AXI allows, corrupts the count.)", "quantifier": "all AXI timing behaviours and FIFO drains", "why_tests_cant": "all interleavings of AXI responses", "anchors": ["migen_src/axihp_reader.py:AxiHPReader", "migen_src/axihp_fifo.py:AxiHPFifo"]}
{"id": "C42", "title": "Memory writer: beats and last flags", "statement": "In every run of the AXI writer wlast is set on exactly beats 16, 32, 48, ... counted from 0, i.e. one beat late, never on the 16th beat of a burst. With a slave that takes flagged beats at once, the data sent are the FIFO's words in order, except that beat 16 may be an extra word taken from an empty FIFO (and this happens); the count of unfinished bursts is exact and at most 8, every response is taken at once, and with a slave that keeps accepting and a FIFO that keeps filling ever more beats are written. A flagged beat the slave is not ready for is withdrawn.", "quantifier": "all schedules", "why_tests_cant": "the property refuted is universal", "anchors": ["migen_src/axihp_writer.py:AxiHPWriter"]}
{"id": "C43", "title": "Delay module", "statement": "With n >= 3 stages the delay module's output is high in a cycle exactly if its input was high at least n cycles earlier (it stays high for ever); with two stages it goes high one cycle after reset without any input.", "quantifier": "all delays and input histories", "why_tests_cant": "all histories", "anchors": ["migen_src/delayer.py:Delayer"]}
{"id": "C44", "title": "Bit reversal is an involution", "statement": "The reverser outputs the bits of its input in reverse order, so reversing twice gives the input back.", "quantifier": "all widths and values", "why_tests_cant": "all values", "anchors": ["migen_src/reverser.py:Reverser"]}
{"id": "C45", "title": "Width constraints of the register map", "statement": "After any sequence of width constraints the accepted widths are those in 1..65535 equal to every registered value; so the predictor's constraint for ps pixels per cycle accepts only the width ps itself, not its multiples. The registered multiple is the largest one registered, not a common multiple.", "quantifier": "all constraint sequences", "why_tests_cant": "the property refuted is universal over sequences", "anchors": ["migen_src/constraints.py:Constraints"]}
{"id": "C46", "title": "The shipped decoder inverts the core", "statement": "A file made of a lossless-JPEG header (precision, lines, width/4 samples per line in four components, a Huffman table segment describing the table the core is configured with, predictor 1), the bytes of a completely transferred frame with its markers stripped, and anything after them, is opened by the bundled C decoder with the right dimensions and decoded to exactly the accepted image, row by row, leaving the gaps between rows of the caller's buffer alone. For images of fewer than four samples per line and component the decoder's row buffers overlap and it may return wrong samples.", "quantifier": "all images of at least 16 samples per line (a multiple of 4), all depths up to 15, all tables describable by a table segment, all schedules of the run that produced the frame, all contents of memory beyond the file", "why_tests_cant": "universally quantified over images", "anchors": ["liblj92/lj92.c:nextdiff", "liblj92/lj92.c:parseScan", "liblj92/lj92.c:parseHuff", "liblj92/lj92.c:lj92_open", "liblj92/lj92.c:lj92_decode"]}
{"id": "C47", "title": "Debug counters count transfers", "statement": "The debug registers report exactly the number of cycles in which their event was observed since reset, modulo their width.", "quantifier": "all histories", "why_tests_cant": "all histories", "anchors": ["migen_src/debug_module.py:DebugModule"]}
{"id": "C48", "title": "AXI id bridge", "statement": "With one transaction at a time the AXI3-to-lite bridge returns with every response the id of the request it answers, marks each read beat as the last, and passes data and response unchanged. (Limit of the code: a read requested together with a write is answered with the write's id.)", "quantifier": "all request sequences", "why_tests_cant": "all histories", "anchors": ["migen_src/axi_lite.py:AxiLite"]}
{"id": "C49", "title": "Software driver preserves the other field", "statement": "Over every sequence of calls the driver functions behave like setters and getters of a plain record of width, height and cycle budget (modulo 2^24): set_width and set_height change only their field of the shared register, and each getter returns what was last set. get_ssss reports the code and length of every class below the bit depth. (Limit of the code: it omits the last class.)", "quantifier": "all values and call sequences", "why_tests_cant": "all call sequences", "anchors": ["software/src/core_axi_lite.cpp:set_height", "software/src/core_axi_lite.cpp:set_width"]}
{"id": "C50", "title": "Beta core always ends a frame", "statement": "In every infinite schedule in which the producer offers pixels infinitely often and the consumer is ready infinitely often, the beta core gives an end-flagged word after finitely many cycles from reset, whatever the stalls.", "quantifier": "all infinite schedules fair to producer and consumer, all allowed_cycles values below 2^24", "why_tests_cant": "liveness over infinite schedules", "anchors": ["migen_src/beta_integration.py:BetaIntegration", "migen_src/force_end.py:ForceEnd", "migen_src/markers.py:Markers"]}
{"id": "C51", "title": "Consecutive frames keep their pixels", "statement": "Over any number of consecutive normally ended frames, when the (n+1)-st frame's end marker is given exactly (n+1)*W*H pixels have been accepted since power-up, and that frame decodes to the pixels number n*W*H to (n+1)*W*H-1 of all accepted pixels; none is lost or shifted in the reset between frames.", "quantifier": "all frame counts, images and schedules on both sides", "why_tests_cant": "unbounded histories across automatic resets", "anchors": ["migen_src/beta_integration.py:BetaIntegration", "migen_src/auto_reset.py:AutoReset", "migen_src/integration_2.py:Integration2"]}
{"id": "C52", "title": "AXI-stream core end to end", "statement": "For the FIFO AXI-stream integration, with any arrival times on the input stream and any m_tready pattern, the n-th normally ended frame on the output stream decodes to the n-th block of W*H pixels contained in the arrived 64-bit words (four 12-bit pixels per word from the top); and if words keep arriving and the sink keeps being ready, a frame end is given after finitely many cycles.", "quantifier": "all arrival and ready schedules, all frame counts and images", "why_tests_cant": "unbounded interleavings of two handshakes over whole frames", "anchors": ["migen_src/beta_integration_fifo_axistream.py:BetaIntegrationFIFOAxiStream", "migen_src/b64_b32_2.py:B64B32_2", "migen_src/beta_integration.py:BetaIntegration"]}
{"id": "C53", "title": "A frame-end reset during a register read breaks the read", "statement": "The register slave of the core is in the core's reset domain: there is a run, with an AXI-lite master obeying the protocol, where the automatic reset at the end of a frame strikes between the acceptance of a read address and its data, so that the read that the master waits for is never answered with the addressed register.", "quantifier": "existence of a run; the claim it refutes ranges over all reset times", "why_tests_cant": "depends on the cycle at which the reset strikes", "anchors": ["migen_src/core_axi_lite.py:CoreAxiLite", "migen_src/auto_reset.py:AutoReset"]}
{"id": "C54", "title": "Full-AXI core: what reaches memory", "statement": "In the full-AXI integration the pixels the core accepts are, in order and without gaps, the first pixels of the 64-bit beats transferred on the AXI read port, and the beats put on the AXI write port are, in order, the packed groups of four words given by the core since the last reset; status registers read over the bus give the engine's own burst counters, and the status word the outstanding bursts. (Limits of the code: error responses of the memory are ignored and the error bits of the status word show one cycle only; the automatic reset at the frame end strikes the DMA engine too, so the group with the end marker and everything still queued never reach memory, a frame shorter than sixteen groups writes nothing at all, the start register is cleared and no further burst is requested until software writes it again, and the burst limits never stop the engine.)", "quantifier": "all AXI read and write slaves, all register accesses, all images", "why_tests_cant": "interleavings of three buses over unbounded histories, including the reset cycle", "anchors": ["migen_src/beta_integration_fullaxi.py:BetaIntegrationFullAxi", "migen_src/axihp_reader.py:AxiHPReader", "migen_src/axihp_writer.py:AxiHPWriter", "migen_src/b64_b32.py:B64B32", "migen_src/b16_b64.py:B16B64"]}
{"id": "C55", "title": "AXI-stream cores without a width converter", "statement": "For the 32-bit AXI-stream integration of the beta core, over any number of frames and any schedule on both streams, the n-th normally ended frame decodes to the n-th block of W*H pixels of the transferred words (bits 31..20, then 19..8), and a frame end comes if both sides are ready infinitely often; for the 64-bit AXI-stream integration of the plain core, the words up to m_tlast decode to exactly the W*H pixels of the transferred words (four per word from bit 0).", "quantifier": "all schedules, frame counts and images", "why_tests_cant": "unbounded interleavings of two handshakes over whole frames", "anchors": ["migen_src/beta_integration_axistream.py:BetaIntegrationAxiStream", "migen_src/integration_3_axi_stream.py:Integration3AxiStream"]}
{"id": "C56", "title": "LVDS core end to end", "statement": "In the LVDS integration the 40-bit words offered on the output are the words of the core in order, packed as the 40-bit packer does, and the pixels of frame n come from the n-th block of arrived words. With a receiver that is ready in every cycle this holds over any number of frames although the packer's data registers are not reset between frames: the 40-bit words of a frame are at most three words FFFFFFFFFF followed by the five-byte groups of the core's words, the end marker's last groups possibly missing, so that a receiver that skips leading FFFFFFFFFF words, drops one byte and strips trailing FF bytes gets exactly the bytes between the markers, which decode to the n-th block of pixels. With words arriving again and again and a receiver that is ready again and again every frame ends. (Limits of the code: those of the 40-bit packer.)", "quantifier": "all schedules, frame counts and images", "why_tests_cant": "unbounded interleavings over several frames", "anchors": ["migen_src/beta_integration_fifo_lvds.py:BetaIntegrationFIFOLVDS", "migen_src/b16_b40.py:B16B40"]}
{"id": "C57", "title": "No early forced end in the cores", "statement": "In the beta and the micro core a frame is ended by force (end-flagged word FFFE) only if a pixel group of the same frame was accepted at least allowed_cycles + 11 cycles before; offered but not accepted pixels and the time before the first accepted pixel do not count.", "quantifier": "all schedules on both sides, all programmed times", "why_tests_cant": "depends on when the first pixel is accepted, over unbounded schedules", "anchors": ["migen_src/force_end.py:ForceEnd", "migen_src/beta_integration.py:BetaIntegration", "migen_src/micro_integration.py:MicroIntegration", "migen_src/markers.py:Markers"]}
{"id": "C58", "title": "A frame is coded with the programmed size, table and cycle budget", "statement": "In the core with AXI-lite registers, software that writes frame size, Huffman table and cycle budget over the bus while no pixel is taken (after power-up, or between two frames) and then leaves the registers alone gets a frame that, when it ends normally, has exactly the written number of pixels, and whose words, decoded with the written table, are the accepted pixels; a forced end comes only after the written budget. This holds for the first and every later frame: registers and table survive the automatic reset. Reads during the frame have no influence.", "quantifier": "all register write and read sequences by a master obeying the protocol, all pixel and output schedules, all histories before the frame", "why_tests_cant": "interleavings of bus traffic, frames and resets over unbounded histories", "anchors": ["migen_src/integration_1.py:Integration1", "migen_src/core_axi_lite.py:CoreAxiLite", "migen_src/beta_integration.py:BetaIntegration", "migen_src/encode.py:Encode"]}
{"id": "C59", "title": "Start-up of the register file is harmless", "statement": "The register file shows frame size 0x0 and budget 0 in the first cycle after power-up and 4096x3072 and 6666000 from then on; the core configured by it accepts and gives, in every schedule and over all frames, exactly what a core with those constants would.", "quantifier": "all schedules on both sides, any number of frames", "why_tests_cant": "equality of two unbounded executions", "anchors": ["migen_src/register_file.py:RegisterFile", "migen_src/integration_1.py:Integration1"]}
{"id": "C60", "title": "The host program prepares the image the core expects", "statement": "The test program turns a raw12 file (12-bit big-endian pixels) into 64-bit (or 32-bit) words such that the pixels the AXI-stream cores take from the words are, in order, the pixels of the file, and writes nothing behind the image; fed with these words, the core configured for 4096x3072 gives a first frame that decodes to the pixels of the file.", "quantifier": "all raw12 files, all stream schedules", "why_tests_cant": "all file contents; composition of software with the core over all schedules", "anchors": ["software/src/xilinx_test.cpp:re_order_set_raw12_64bits", "software/src/xilinx_test.cpp:re_order_set_raw12_32bits", "migen_src/beta_integration_fifo_axistream.py:BetaIntegrationFIFOAxiStream"]}
{"id": "C61", "title": "The host program's verdict on the compressed image", "statement": "With the core's words in the destination memory, the test program prints that validation succeeded exactly if the words behind the start marker begin with the bytes of the reference file (even length of at least ten); a normally ended frame and a correct reference scan of the same pixels always pass all three checks, and success against an even-length reference that decodes to an image means that the core accepted that image. (Limits of the code: for odd length the last byte is not compared; below ten bytes only whole words are; the forced end marker FFFE is looked for in the wrong byte order and not found.)", "quantifier": "all memory contents, reference files, images and schedules", "why_tests_cant": "an equivalence over all memories and files, and a composition with the core", "anchors": ["software/src/xilinx_test.cpp:validate", "software/src/xilinx_test.cpp:check_first_marker", "software/src/xilinx_test.cpp:check_last_marker", "software/src/xilinx_test.cpp:re_order_lj92"]}
{"id": "C62", "title": "The software encoder writes a complete legal file", "statement": "lj92_encode, called with any image (any sample values, any grouping of the samples in memory, no delinearization table), writes a file consisting of the lossless-JPEG header (predictor 6, the right depth, height and width, and a Huffman table that is a legal prefix code with no all-ones code and covers every difference class that occurs), the byte-stuffed code of all samples and the end-of-image marker; no marker occurs within the scan. It fails only with an encoder error and only if the file would be longer than about three bytes per sample. (Limits of the code: up to four bytes more than allocated are written, which does happen: a row of 1209 16-bit samples exists for which the call succeeds and has written one byte beyond its buffer, and legal rows of every length from 1248 samples exist that are refused; with a delinearization table the counted frequencies do not belong to the coded values and wrong codes are written.)", "quantifier": "all images, dimensions, groupings and depths whose sizes fit the header and an int", "why_tests_cant": "the optimal-code construction in single precision floats and the code for arbitrary unbounded images", "anchors": ["liblj92/lj92.c:lj92_encode", "liblj92/lj92.c:frequencyScan", "liblj92/lj92.c:createEncodeTable", "liblj92/lj92.c:writeBody", "liblj92/lj92.c:writeHeader"]}
{"id": "C63", "title": "The software encoder's scan is the T.81 code", "statement": "For samples of up to 14 bits the bits the encoder codes are, sample by sample, the T.81 annex H code (class code word followed by the additional bits) of the difference between sample and predictor-6 prediction; classes do not exceed the depth plus one. (At 15 and 16 bits class 16 can occur and is written with 16 additional bits, which T.81 does not allow.)", "quantifier": "all images of up to 14 bits, all dimensions", "why_tests_cant": "all sample values and neighbourhoods", "anchors": ["liblj92/lj92.c:writeBody", "liblj92/lj92.c:frequencyScan"]}
{"id": "C64", "title": "Software encode-decode round trip", "statement": "Every file lj92_encode writes for an image of at least 32x2 samples of up to 14 bits is opened by lj92_open with the right dimensions and depth, and lj92_decode gives exactly the encoded samples, put in groups of the requested length (at least two) with the requested gap, every value through the linearization table if one is given; no other value of the target is changed. (Limits of the code: a one-row image or a narrow one is refused as corrupt; with groups of one sample the gap is not left.)", "quantifier": "all images, dimensions, groupings, target memories and bytes behind the file", "why_tests_cant": "a composition of an encoder and a decoder over all images", "anchors": ["liblj92/lj92.c:parsePred6", "liblj92/lj92.c:lj92_decode", "liblj92/lj92.c:lj92_open", "liblj92/lj92.c:lj92_encode", "liblj92/lj92.c:nextdiff"]}
{"id": "C65", "title": "The cycle budget bounds the size of a frame", "statement": "A frame that ends normally (end marker FFFF) has at most allowed_cycles - 6 data words, hence at most 16*(allowed_cycles-6) bits of code; an image whose code is longer ends by force in every schedule. (Limit of the code: with the shipped setting of 6666000 cycles for 4096x3072 pixels, images of more than about 8.5 bits per pixel, for example a pattern of alternating black and white runs of four pixels, never end normally, although nothing is wrong with them.)", "quantifier": "all images, cycle limits and schedules of producer and receiver", "why_tests_cant": "it bounds every execution, and the limit shows only on images too large for a simulation", "anchors": ["migen_src/force_end.py:ForceEnd", "migen_src/markers.py:Markers", "migen_src/register_file.py:RegisterFile", "migen_src/beta_integration.py:BetaIntegration"]}
{"id": "C66", "title": "Full speed: the core never makes the producer wait for a compressible image", "statement": "If every group of pixels needs at most L bits (L at most the output width and the converter width, and output width + 2L - 1 at most the packer buffer) and the receiver has been busy in few cycles (4 times their number below the converter FIFO depth less its reserve), the core signals ready in every cycle from the ninth after reset until the frame is complete, and takes exactly the groups offered in these cycles; for the Axiom Beta core: 16 bits per pair of pixels and up to 125 busy cycles.", "quantifier": "all images with that property, all producer schedules, all placements of the busy cycles, all configurations", "why_tests_cant": "a throughput guarantee for unbounded runs and every schedule", "anchors": ["migen_src/integration_3.py:Integration3", "migen_src/integration_2.py:Integration2", "migen_src/vbits_to_cbits.py:VBitsToCBits", "migen_src/converter.py:Converter"]}
{"id": "C67", "title": "The software decoder handles every predictor of T.81 for one component", "statement": "A lossless-JPEG file with one component of up to 14 bits, coded with any of the seven predictors and any legal Huffman table, is opened by lj92_open with the right dimensions and depth, and lj92_decode gives exactly the coded samples, row by row with the requested gap after each row, every value through the linearization table if one is given; no other value of the target is changed. (Predictor 6 is subject to the limits of C64. Limit of the code: with more than one component and any predictor but 1 legal files are decoded wrongly without an error.)", "quantifier": "all images, dimensions, predictors, legal Huffman tables, padding and trailing bytes, target memories", "why_tests_cant": "all images and tables, and every sample depends on all earlier ones", "anchors": ["liblj92/lj92.c:parseScan", "liblj92/lj92.c:parsePred6", "liblj92/lj92.c:lj92_decode", "liblj92/lj92.c:lj92_open", "liblj92/lj92.c:nextdiff"]}
{"id": "C68", "title": "What a frame of the micro core contains", "statement": "From a reset to the first word with the end flag the micro core gives the start marker, data words and the forced end marker FFFE, in every frame of every history. The data words continue, without gap or repetition, a stretch of at least one and at most ten words at the beginning of the byte-stuffed code, which is lost; what is missing at the end was cut off by the forced end, and if the frame was complete before, its last code word is repeated up to the forced end. If pixels keep being offered and the consumer keeps being ready, every frame ends; nothing of earlier frames is left after the reset. The same holds between two AXI streams, with the pixels taken from the low twelve bits of the stream words.", "quantifier": "all images, tables, configurations, cycle limits and schedules on both sides, any number of frames", "why_tests_cant": "all interleavings and frame contents; the extent of the loss depends on the schedule; liveness", "anchors": ["migen_src/micro_integration.py:MicroIntegration", "migen_src/micro_integration_axistream.py:MicroIntegrationAxiStream", "migen_src/markers.py:Markers", "migen_src/fix_0xff2.py:Fix0xFF2"]}
{"id": "C69", "title": "A frame of the micro core is coded with the programmed size, table and budget", "statement": "When software has written frame size, cycle budget and Huffman table over AXI-lite before the first pixel and requests no write during the frame, the frame of the micro core is exactly what C68 says with the written width, height and table: its data words continue the stuffed code of the accepted pixels in lines of the written width, and it is ended only when a pixel of it had been accepted more than the written budget before. This holds for the first and every later frame, with registers rewritten between frames or left alone, and with reads at any time.", "quantifier": "all bus and pixel schedules, register contents, images, histories of earlier frames", "why_tests_cant": "all interleavings of the register bus, the pixel stream, the consumer and the automatic reset", "anchors": ["migen_src/micro_integration.py:MicroIntegration", "migen_src/core_axi_lite.py:CoreAxiLite", "migen_src/integration_1.py:Integration1"]}
{"id": "C70", "title": "The shipped Verilog of the beta core behaves as its source", "statement": "From power-up, whatever the registers without an initial value hold, and for every sequence of inputs including external resets at any time, the output ports of the netlist verilog_src/beta_integration.v show in every cycle exactly what the nMigen description (beta_integration.py with its register file) shows.", "quantifier": "all input sequences, all power-up contents of uninitialised registers", "why_tests_cant": "cycle-exact equivalence of two state machines with tens of thousands of bits of state over unbounded runs", "anchors": ["verilog_src/beta_integration.v:top", "migen_src/beta_integration.py:BetaIntegration", "migen_src/integration_3.py:Integration3", "migen_src/register_file.py:RegisterFile"]}
{"id": "C71", "title": "What the shipped Verilog of the beta core gives", "statement": "From power-up, from any external reset, and from the end of every frame, the netlist gives up to the next word with the end flag: the start marker, data words, an end marker. With end marker FFFF exactly 4096x3072 pixels were accepted and the data words decode (T.81, predictor 1, default table, byte stuffing removed) to exactly these pixels; with FFFE the data words are a prefix of the code, and a pixel had been accepted at least 6666010 cycles before. If pixels are offered and words taken again and again every frame ends.", "quantifier": "all images, schedules on both sides, histories of frames and external resets", "why_tests_cant": "all frames of all schedules of a 4096x3072 encoder; liveness", "anchors": ["verilog_src/beta_integration.v:top"]}
{"id": "C72", "title": "The shipped Verilog of the beta core between two 32-bit AXI streams", "statement": "From power-up and after any external reset, the netlist verilog_src/beta_integration_axistream.v codes frame after frame: after n normally ended frames, when the next word FFFF with m_tlast is transferred, (n+1)*4096*3072 pixels have been transferred on the slave stream (bits 31..20 and 19..8 of its words), and the words transferred on the master stream since the last end decode (markers and stuffing removed, T.81, predictor 1, default table) to exactly the last 4096x3072 of them. If words are offered and taken again and again, every frame ends.", "quantifier": "all images, handshake schedules on both streams, numbers of frames, histories before a reset, power-up contents of uninitialised registers", "why_tests_cant": "all frames of all schedules of a 4096x3072 encoder; liveness", "anchors": ["verilog_src/beta_integration_axistream.v:top", "migen_src/beta_integration_axistream.py:BetaIntegrationAxiStream"]}
{"id": "C73", "title": "The shipped Verilog of the beta core between a 64-bit FIFO and an AXI stream", "statement": "From power-up and after any external reset, the netlist verilog_src/beta_integration_fifo_axistream.v codes frame after frame from a source that shows each 64-bit word until s_tready: after n normally ended frames, when the next word FFFF with m_tlast is transferred, the words since the last end decode to the pixels number n*4096*3072 to (n+1)*4096*3072-1 of those in the words of the source (four pixels in bits 63..16), so that no pixel is lost or repeated, also across frame boundaries. If words arrive and are taken again and again, every frame ends.", "quantifier": "all images, arrival and handshake schedules, numbers of frames, histories before a reset, power-up contents of uninitialised registers", "why_tests_cant": "all frames of all schedules of a 4096x3072 encoder; liveness", "anchors": ["verilog_src/beta_integration_fifo_axistream.v:top", "verilog_src/beta_integration_fifo_axistream.v:b64_b32", "migen_src/beta_integration_fifo_axistream.py:BetaIntegrationFIFOAxiStream", "migen_src/b64_b32_2.py:B64B32_2"]}
{"id": "C74", "title": "The shipped Verilog of the beta core with a 40-bit output stream", "statement": "From power-up and after any external reset, in the netlist verilog_src/beta_integration_fifo_lvds.v: after n normally ended frames the 16-bit words that the core gives to the packer up to the next FFFF with the end flag decode to the pixels number n*4096*3072 to (n+1)*4096*3072-1 of those in the 64-bit words of the source, whatever the receiver does. With a receiver that is always ready the 40-bit words transferred in the first frame are in order the five-byte groups of these words, except at most two complete groups and an incomplete last group that are still inside; and in every frame what such a receiver makes of them decodes to that frame's pixels. Every frame ends if words arrive and the receiver is ready again and again.", "quantifier": "all images, arrival and handshake schedules, numbers of frames, histories before a reset, power-up contents of uninitialised registers", "why_tests_cant": "all frames of all schedules of a 4096x3072 encoder", "anchors": ["verilog_src/beta_integration_fifo_lvds.v:top", "verilog_src/beta_integration_fifo_lvds.v:b16_b40", "migen_src/beta_integration_fifo_lvds.py:BetaIntegrationFIFOLVDS", "migen_src/b16_b40.py:B16B40"]}
{"id": "C75", "title": "The rest of a frame comes out in bounded time", "statement": "Once all pixels of the frame have been taken, the core delivers its end-flagged last word after at most a number of cycles that depends on the configuration alone (FIFO depths, widths of the converter, the buffer and the output word), plus nine for every cycle in which the receiver is busy; for the Axiom Beta configuration 87659 cycles if the receiver is always ready.", "quantifier": "all images, tables, configurations, schedules before and after the last pixel", "why_tests_cant": "a worst-case bound over all reachable states of three FIFOs and two state machines", "anchors": ["migen_src/integration_3.py:Integration3", "migen_src/converter.py:Converter", "migen_src/vbits_to_cbits.py:VBitsToCBits", "migen_src/converter_fifo.py:ConverterFIFO"]}
{"id": "C76", "title": "A busy receiver delays the producer by a bounded amount", "statement": "If every group of pixels adds at most L bits to the code (L at most the output width and the converter width, out+2L at most buffer+1), then until the frame is complete the number of groups offered from the ninth cycle after reset on and not taken is at most one plus four times the number of cycles in which the receiver was busy. In the Axiom Beta configuration, with at most 16 bits per pair of pixels and a pair offered in every cycle, the frame has been taken after 8+4096*3072/2+1 cycles plus four per busy cycle.", "quantifier": "all images of bounded local code length, tables, configurations, busy schedules", "why_tests_cant": "an amortised bound over all busy schedules and all images, through three FIFOs", "anchors": ["migen_src/integration_3.py:Integration3", "migen_src/converter.py:Converter", "migen_src/vbits_to_cbits.py:VBitsToCBits", "migen_src/converter_fifo.py:ConverterFIFO"]}
{"id": "C77", "title": "Frames of bounded code rate end normally, within the time limit", "statement": "If every group of pixels of the image adds at most L bits to the code (L as in the bounded-delay property) and the code contains at most F bytes FF, then with at most K pauses of the producer before the frame is taken and at most B busy cycles of the receiver the frame ends with the normal end marker FFFF and all pixels taken, after at most W*H/ps + K + B + 9*(10+B+F/2) + drain + 65 cycles, provided the time limit is not shorter. For the shipped Axiom Beta core and its Verilog: every 4096x3072 image in which no sample differs by more than 31 from its prediction and whose code has at most 63000 bytes FF comes out whole (FFFF, not the forced end FFFE) if pixels are offered in every cycle and the receiver is always ready; no FF byte occurs at all if no sample differs by more than 7 from its prediction.", "quantifier": "all images of bounded local code length, configurations, pause and busy schedules, histories before the frame", "why_tests_cant": "a worst-case bound on the whole path through five stages with back-pressure, over all images and schedules", "anchors": ["migen_src/beta_integration.py:BetaIntegration", "migen_src/fix_0xff.py:Fix0xFF", "migen_src/fix_0xff2.py:Fix0xFF2", "migen_src/markers.py:Markers", "migen_src/force_end.py:ForceEnd", "verilog_src/beta_integration.v:top"]}
{"id": "C78", "title": "The shipped Verilog of the whole design with memory reader and writer", "statement": "From power-up the output ports of the netlist verilog_src/beta_integration_fullaxi.v (read and write AXI master ports and register bus) show in every cycle what the nMigen source says, and again from every cycle with an external or automatic reset on. Hence in the netlist: the words the core gives up to FFFF with the end flag decode (markers and stuffing removed, T.81, predictor 1, default table) to the first 4096x3072 pixels of the 64-bit beats transferred on the read port; the beats in memory are in order a prefix of the groups of four of these words (with at most one stray seventeenth beat); burst addresses count up by 128 from the address register; after a reset nothing is requested or written until the register bus writes; the status registers give the numbers of bursts, the next addresses, and the status word the outstanding bursts and the error indications of one cycle. (Limits: as for the source; error responses of the memory change nothing, and the error bits are not latched.)", "quantifier": "all memory contents, latencies and handshake schedules on three AXI ports, error responses, histories before a reset, power-up contents of uninitialised registers", "why_tests_cant": "cycle-exact equivalence of two machines with tens of thousands of bits of state over unbounded runs with resets", "anchors": ["verilog_src/beta_integration_fullaxi.v:top", "migen_src/beta_integration_fullaxi.py:BetaIntegrationFullAxi", "migen_src/axihp_reader.py:AxiHPReader", "migen_src/axihp_writer.py:AxiHPWriter", "migen_src/axihp_fifo.py:AxiHPFifo", "migen_src/dma_axi_lite.py:DMAAxiLite", "migen_src/b64_b32.py:B64B32", "migen_src/b16_b64.py:B16B64", "migen_src/address_generator.py:AddressGenerator"]}
{"id": "C79", "title": "With a fair memory every started frame of the full design ends", "statement": "After power-up or a reset of the design with memory reader and writer, when software has written the start command FFFFFFFF to the start register and writes no more, and the memory is fair (it accepts bursts and write beats again and again, delivers the beats it owes at some time, with rlast on every sixteenth, and takes a beat with wlast at once), the core gives a last word with the end flag. The same for the shipped Verilog verilog_src/beta_integration_fullaxi.v.", "quantifier": "all memory contents, latencies and fair handshake schedules on three AXI ports, addresses, start times, histories before the reset", "why_tests_cant": "liveness of a closed loop of reader, unpacker, core, packer and writer with three FIFOs, over infinite schedules", "anchors": ["migen_src/beta_integration_fullaxi.py:BetaIntegrationFullAxi", "migen_src/axihp_reader.py:AxiHPReader", "migen_src/axihp_writer.py:AxiHPWriter", "migen_src/b64_b32.py:B64B32", "migen_src/b16_b64.py:B16B64", "verilog_src/beta_integration_fullaxi.v:top"]}
{"id": "C80", "title": "The shipped Verilog of the micro core with its registers", "statement": "From power-up the output ports of the netlist verilog_src/micro_integration_axistream.v (slave stream, master stream, AXI-lite register bus) show in every cycle, for all inputs and external resets, what the nMigen source says. Hence in the netlist: when software has written frame size, cycle budget and Huffman table over the bus, every frame (the first after power-up and every later one, registers rewritten between or not) comes out as start marker, data words and the forced end FFFE, the data words continue after one to ten lost words the byte-stuffed code of the pixels transferred on the slave stream in lines of the written width by the written table, the frame ends only if a pixel had been transferred more than the written budget (plus 10) cycles before, and it does end if pixels are offered and the consumer is ready infinitely often.", "quantifier": "all inputs on all ports over unbounded runs, register contents, pixel values, schedules, power-up contents of uninitialised memories", "why_tests_cant": "cycle-exact equivalence of two machines with tens of thousands of bits of state over unbounded runs with resets and register writes at any time", "anchors": ["verilog_src/micro_integration_axistream.v:top", "migen_src/micro_integration_axistream.py:MicroIntegrationAxiStream", "migen_src/micro_integration.py:MicroIntegration", "migen_src/core_axi_lite.py:CoreAxiLite", "migen_src/encode.py:Encode"]}
{"id": "C81", "title": "The shipped Verilog of the four-pixel core between two AXI streams", "statement": "From power-up the output ports of the netlist verilog_src/integration_3_axi_stream.v show in every cycle, for all inputs including both resets, what the nMigen source says. Hence in the netlist, from power-up or a cycle with rst on and without a further reset: the bits of the 32-bit words transferred on the master stream before the one with m_tlast are a prefix of the T.81 code of the pixels in the 64-bit words transferred on the slave stream; at m_tlast exactly 4096x3072 pixels were taken and the words decode to them; no further pixel is taken; a word not taken stays unchanged; the frame ends if words are offered and the receiver is ready again and again. Limit: once the word with m_tlast is up it is offered and transferred again and again until rst, so that the core codes one frame per reset and gives more than one word with m_tlast.", "quantifier": "all inputs on all ports over unbounded runs, pixel values, schedules, histories before a reset, power-up contents of uninitialised memories", "why_tests_cant": "cycle-exact equivalence of two machines with tens of thousands of bits of state over unbounded runs with resets", "anchors": ["verilog_src/integration_3_axi_stream.v:top", "migen_src/integration_3_axi_stream.py:Integration3AxiStream", "migen_src/integration_3.py:Integration3", "migen_src/predictor_p1_c4_px4.py:PredictorP1C4PX4", "migen_src/register_file.py:RegisterFile"]}
{"id": "C82", "title": "Which memory the liblj92 decoder touches", "statement": "For every input, lj92_open returns, reads at most 64 KiB beyond the end of the input buffer, writes at most the two bytes behind it and writes its look-up table inside the table. For every file it opens, lj92_decode returns, writes the target image only at the places of the stated width, height, components and skip, and stays inside its row buffers (predictor 6: if there is at least one sample and component and the group length is at least 2); the linearization table is read up to the stated length inclusive. For every legal file (the core's files with four components, and one-component files with any predictor, up to 15 and 14 bits), opening touches only the file, and decoding stays inside the look-up table, the histogram, the row buffers and the image and reads no further than three bytes behind the end of the code. Limits: the four bytes are needed (a legal file that ends with the end marker is over-read by two bytes); a five-byte file is written behind its end; a frame header with a wrong length is followed 64 KiB away; a truncated file is read beyond its end as far as the stated size asks; a file without a table dereferences a null pointer; 16-bit samples overrun the 16-entry histogram; the linearization test is off by one and missing in the first row with predictor 6; zero components with predictor 6 write to empty row buffers.", "quantifier": "all input bytes and lengths, all contents of memory behind the input and of the fresh look-up table, all image sizes, linearization tables, group and skip lengths", "why_tests_cant": "memory safety over all malformed and well-formed files of any length cannot be settled by examples; over-reads of a few bytes are invisible in a test", "anchors": ["liblj92/lj92.c:find", "liblj92/lj92.c:parseHuff", "liblj92/lj92.c:parseSof3", "liblj92/lj92.c:parseImage", "liblj92/lj92.c:nextdiff", "liblj92/lj92.c:parseScan", "liblj92/lj92.c:parsePred6", "liblj92/lj92.c:lj92_open", "liblj92/lj92.c:lj92_decode"]}
{"id": "C83", "title": "The shipped Verilog of the single blocks", "statement": "The netlists shipped for single blocks behave from power-up as the sources say, and a reset cycle leads back to power-up from any state: delayer.v turns its output on exactly when an input was on eight or more cycles ago; reverser.v swaps bit j and bit 31-j; debug_module.v counts per enable bit modulo 2^32; address_generator.v hands out base, base+16, base+32, \u2026; b64_b32_2.v gives the two 32-bit halves of every 64-bit word in order, with progress; b16_b40.v gives the five-byte groups of its bytes if the consumer is always ready; axi_lite.v answers with the id of the last request and passes all other signals unchanged; core_axi_lite.v implements the register map with 8 debug counters for every well-behaved master; axihp_reader.v in front of axihp_fifo.v delivers every beat of every burst exactly once and in order, with at most eight bursts under way; axihp_writer.v behind axihp_fifo.v writes the words in order. Limits in the netlists as in the sources: b16_b40.v loses bits if the consumer is ever busy; axihp_writer.v sets wlast one beat late and may send one word nobody gave.", "quantifier": "all input sequences and handshake schedules of any length, all register contents, table contents and bus masters", "why_tests_cant": "equivalence of generated circuits with their sources over unbounded runs; loss of data under particular schedules", "anchors": ["verilog_src/delayer.v:top", "verilog_src/reverser.v:top", "verilog_src/debug_module.v:top", "verilog_src/address_generator.v:top", "verilog_src/b64_b32_2.v:top", "verilog_src/b16_b40.v:top", "verilog_src/axi_lite.v:top", "verilog_src/core_axi_lite.v:top", "verilog_src/axihp_reader.v:top", "verilog_src/axihp_writer.v:top", "verilog_src/axihp_fifo.v:top"]}
{"id": "C84", "title": "The host test program as a whole", "statement": "The test program on the Zynq, for every pair of files, every outcome of its system calls and every value its device registers and the destination memory return: with a reference of at least 256 bytes and at most 2^25-160 it touches only bytes of its two buffers (between malloc and free), the two 32 MiB DMA regions and the two register windows, and every access is aligned except the word loads of the marker search; it programs the DMA engine by exactly ten writes in a fixed order, with a receive length of the reference size plus 1024 rounded up to words; at each of them the source region holds the picture of the raw file and the destination region is zero, and neither is written afterwards; the core is then configured to 4096x3072 and 0xFFFFFF cycles if its registers read back; the destination is read, and the program ends, only after both channels reported completion; an error exit comes before the first DMA write or after both transfers; its verdict is success exactly if the destination region behind the 16 marker bytes equals the reference with swapped bytes, and a correct core passes with both markers found; the status line names exactly the bits set. With files of the right size a run can finish whatever the destination holds. Limits: a reference shorter than 256 bytes is read before its start and one of 2^25-15 bytes or more has the destination read behind its end; the receive length exceeds the region for references above 2^25-1024 bytes; a DMA error makes it wait for ever; file sizes count modulo 2^32.", "quantifier": "all configurations, file sizes and contents, outcomes of system calls, register values and destination contents, at every moment of every run", "why_tests_cant": "a test sees one run on one board; memory accesses outside buffers, order of device accesses and behaviour under errors of the engine do not show in its result", "anchors": ["software/src/xilinx_test.cpp:main", "software/src/xilinx_test.cpp:validate", "software/src/xilinx_test.cpp:check_last_marker", "software/src/xilinx_dma.cpp:XilinxDMA", "software/src/tools.cpp:load_file", "software/src/mmap_handler.cpp:MMapHandler", "software/src/core_axi_lite.cpp:CoreAXILite", "software/src/config.h"]}
{"id": "C85", "title": "Which memory the liblj92 encoder touches", "statement": "lj92_encode, for every image of at least one sample whose sizes fit int, every bit depth, group and skip length and every delinearization table, returns with a file or with the encoder error (it never hangs and never leaves its tables). The caller's image is only read, only at the width*height samples the group and skip lengths describe; a successful call reads them twice, in order. The delinearization table is read only if given, and in a successful call exactly once per sample, at the value of the sample, whatever its stated length is. The row cache, histogram, code and tree arrays are accessed only within their sizes. The output is only written, in a successful call every byte of the file exactly once and in order. Limit: up to four bytes behind the allocated output buffer can be written, and a write behind it does happen in a call that succeeds.", "quantifier": "all images, sizes, bit depths, group and skip lengths, delinearization tables", "why_tests_cant": "out-of-bounds accesses of an index or two do not show in results; the offending images are rare (they need code tables of particular shapes)", "anchors": ["liblj92/lj92.c:lj92_encode", "liblj92/lj92.c:frequencyScan", "liblj92/lj92.c:createEncodeTable", "liblj92/lj92.c:writeHeader", "liblj92/lj92.c:writeBody", "liblj92/lj92.c:writePost"]}
{"id": "C86", "title": "What follows a forced end", "statement": "After any number of frames of the beta core, each ended normally or by force: a frame that ends normally holds exactly the W*H pixels accepted since the last reset cycle, wherever in the producer's image they are; a frame that is ended by force still decodes to its leading pixels, as many as have their whole code in the data between the markers; no pixel is accepted in the reset cycle after a normal end. The forced end does not fire while the codes of the accepted pixels are shorter than one output word, for however many cycles. With pixels offered and the receiver ready again and again, frame follows frame for ever: every schedule begins, for every n, with n complete frames. The same holds for the shipped netlist of the 32-bit stream core from power-up and after any external reset. (Limits of the code: after a forced end the core does not wait for the begin of the next image, so the rest of the cut image becomes the begin of the next frame, and a pixel accepted in the reset cycle is lost: from then on every frame is a mixture of two images.)", "quantifier": "all configurations with 16-bit words and at most 15 bits per pixel, all histories of frames with normal and forced ends, all schedules of producer and receiver, all cycle limits, all numbers k of leading pixels", "why_tests_cant": "The core's tests run single frames that end normally; a forced end followed by another frame, at every possible cycle and amount of data, is never run.", "anchors": ["migen_src/beta_integration.py:BetaIntegration", "migen_src/markers.py:Markers", "migen_src/force_end.py:ForceEnd", "migen_src/auto_reset.py:AutoReset", "verilog_src/beta_integration_axistream.v"]}
{"id": "C87", "title": "The shipped 16-bit Verilog of the pipeline blocks", "statement": "The netlists shipped for the single blocks of the encoding pipeline (16-bit pixels), from power-up and in every schedule of valid and idle cycles: difference.v gives x-p and x-p-1 as 17-bit numbers; difference.v, normalize.v and encode.v one after the other give, exactly four cycles later, the flags of the cycle and the T.81 code of the pixel with the default table, which decodes to exactly that pixel if it is at most 32768 away from its prediction and never does if it is further away; merge.v gives the two codes one after the other, bit for bit; the two predictors give T.81 predictor 1 with four components for rows and frames of any size; converter.v cuts words of up to 62 bits into pieces of 1 to 36 bits without losing, adding or moving a bit or an end mark; both FIFOs hand on what they accept in order and unchanged, refuse a word only when 127 are inside, and as long as close_full is off accept the next 9 (pipeline FIFO) and 4 (converter FIFO) words; register_file.v answers 4096, 3072 and 6666000; a reset cycle leads back to power-up from any state.", "quantifier": "all states, pixels and predictions, all input sequences and handshake schedules of any length, all row lengths", "why_tests_cant": "equivalence of generated circuits with their purpose over unbounded runs and all 2^32 pairs of pixel and prediction", "anchors": ["verilog_src/difference.v:top", "verilog_src/normalize.v:top", "verilog_src/encode.v:top", "verilog_src/merge.v:top", "verilog_src/predictor_p1_c4_px4.v:top", "verilog_src/predictor_p1_c4_pix1_2.v:top", "verilog_src/converter.v:top", "verilog_src/lj92_pipeline_fifo.v:top", "verilog_src/converter_fifo.v:top", "verilog_src/register_file.v:top"]}
{"id": "C88", "title": "The shipped Verilog of the bare four-pixel core", "statement": "From power-up the output ports nready, valid_out, end_out, data_out and fend_out of the netlist verilog_src/integration_3.v show in every cycle, for all inputs including both resets, what the nMigen source says. From power-up or a cycle with rst on, without a further reset: the bits of the 32-bit words given (valid_out with busy_in low) before the one with end_out are a prefix of the T.81 code of the pixels taken (valid_in with nready low); at end_out exactly 4096x3072 pixels were taken and the words decode to them; no further pixel is taken; a word shown while busy_in is high stays unchanged; the frame ends if pixels are offered and busy_in is low again and again; fend_out stays off before the first pixels and is on from exactly 6666002 cycles after the cycle that follows them. Limit: once the word with end_out is up it is given again in every cycle until rst.", "quantifier": "all inputs on all ports over unbounded runs, pixel values, schedules, histories before a reset, power-up contents of uninitialised memories", "why_tests_cant": "cycle-exact equivalence of two machines with tens of thousands of bits of state over unbounded runs with resets", "anchors": ["verilog_src/integration_3.v:top", "migen_src/integration_3.py:Integration3", "migen_src/force_end.py:ForceEnd", "migen_src/register_file.py:RegisterFile"]}
{"id": "C89", "title": "The core without its packer, and its shipped Verilog", "statement": "Integration2 read by an arbitrary consumer (latch_output), for every legal configuration and table, from reset: at every moment the bits of the pieces read (valid_out with latch_output) are a prefix of the T.81 code of the pixels taken (valid_in with nready low); every piece has 1 to conv bits and no bits beyond its count; the piece with the end flag is the last one, and with it the pieces are exactly, bit for bit and without padding, the code of the W*H pixels taken and decode to them; no further pixel is taken; a piece not read stays unchanged; the frame ends if pixels are offered and pieces are read again and again. The netlist verilog_src/integration_2.v shows in every cycle, both resets included, what the source says, and hence does the same for 4096x3072 frames from power-up or a cycle with rst on; fend_out stays off before the first pixels and is on from exactly 6666002 cycles after the cycle that follows them.", "quantifier": "all legal configurations and tables, pixel values, schedules of producer and reader, inputs on all ports over unbounded runs, histories before a reset, power-up contents of uninitialised memories", "why_tests_cant": "conservation of a bit stream through three queues over all schedules; cycle-exact equivalence of two machines over unbounded runs", "anchors": ["migen_src/integration_2.py:Integration2", "verilog_src/integration_2.v:top", "migen_src/converter.py:Converter", "migen_src/converter_fifo.py:ConverterFifo", "migen_src/lj92_pipeline_fifo.py:LJ92PipelineFifo", "migen_src/force_end.py:ForceEnd"]}
{"id": "C90", "title": "The shipped Verilog of the bare micro core", "statement": "The netlist verilog_src/micro_integration.v, the one-pixel core with its AXI-lite registers but without AXI streams and without output ports of the register bus, shows on nready, valid_out, end_out and data_out in every cycle, for all inputs on all ports and the external reset included, what the source micro_integration.py says. Software that cannot see the bus can still program it: after a reset, two register writes of seven cycles each, made blindly while busy_in is high, set frame size and cycle budget; then for every such size W x H (W >= 4, W*H >= 5), for this frame and all later ones without further writes, the netlist gives the start marker, data words and the forced end marker FFFE; the data words continue, after one to ten lost words, the byte-stuffed T.81 code of the pixels taken in lines of W, and if the last code word is repeated W*H pixels were taken; a frame ends only if a pixel had been taken more than the written budget plus ten cycles before, and it ends whenever pixels are offered and words are taken again and again.", "quantifier": "all inputs on all ports over unbounded runs, all frame sizes and budgets, pixel values, schedules of producer and consumer, numbers of frames before, power-up contents of uninitialised registers and memories", "why_tests_cant": "cycle-exact equivalence of two machines over unbounded runs, and frames of every size under every schedule", "anchors": ["verilog_src/micro_integration.v:top", "migen_src/micro_integration.py:MicroIntegration", "migen_src/core_axi_lite.py:CoreAxiLite", "migen_src/auto_reset.py:AutoReset"]}
{"id": "C91", "title": "The shipped Verilog of the encoding pipeline", "statement": "The netlist verilog_src/integration_1.v, the two-pixel pipeline with its AXI-lite registers and forced-end counter but without FIFOs and packer, shows on its output ports in every cycle, for all inputs on all ports and both resets in any combination, what the source integration_1.py says. After a reset, blind register writes set the codes of any of the classes 0..12 (each of at most 15 bits), the frame size and the budget; then, for every legal size, after any history ended by a reset, and for every pattern of valid and idle cycles: a piece of code appears exactly six cycles after each pair of pixels and in no other cycle, with at most 56 bits, end_out on the piece that completes the frame and on no other; the bits of the pieces are exactly the T.81 code of the pixels, under the default table with the written classes replaced, so that a T.81 decoder reads the frame back; and fend_out rises exactly budget + 3 cycles after the cycle of the first pixels.", "quantifier": "all inputs on all ports and both resets over unbounded runs, all tables with codes of at most 15 bits, frame sizes, budgets, pixel values, patterns of valid_in, histories, power-up contents of uninitialised registers", "why_tests_cant": "cycle-exact equivalence of two machines over unbounded runs, and frames of every size under every schedule and table", "anchors": ["verilog_src/integration_1.v:top", "migen_src/integration_1.py:Integration1", "migen_src/core_axi_lite.py:CoreAxiLite", "migen_src/encode.py:Encode", "migen_src/force_end.py:ForceEnd"]}
{"id": "C92", "title": "How long the code of an image and a frame can be", "statement": "With a table that gives no difference of the configured bit depth fewer than m or more than L bits, the code of every image of n samples has between m*n and L*n bits; with the default table that is at least 4 bits per sample and at most 21 at 12 bits (bit depth + 3 up to 7 bits, twice the bit depth - 3 from 8 to 15), and for every row length from 4 and every number of samples there are images that attain each bound. A frame of the beta core (legal size, every code word containing a zero), complete or forced, in every schedule, has at most ((2*L-1)*width*height+23)/16 words of 16 bits besides its 16 marker words, stuffing included, and never more than budget+10 words in all; a complete one has at least m*width*height/16 words besides the markers. A frame of the shipped beta netlist has at most 6666010 words, a complete one at least 3145744.", "quantifier": "all images, bit depths, row lengths, sizes, tables, budgets and schedules of both sides, histories ended by a reset", "why_tests_cant": "the sizes of all images under all schedules", "anchors": ["migen_src/encode.py:Encode", "migen_src/fix_0xff.py:Fix0xFF", "migen_src/markers.py:Markers", "migen_src/force_end.py:ForceEnd", "test_files/README.md", "verilog_src/beta_integration.v:top"]}
{"id": "C93", "title": "What the register buses do to an unrestricted AXI master", "statement": "C37 and C39 ask of the bus master more than AXI does: not to withdraw a ready before the response, and not to offer write data in the cycle after a write data transfer. Each condition is needed, on the core's register bus and on the DMA's. For every history and every master, a response offered in one cycle is withdrawn in the next, taken or not, and none is offered before the master is ready for it; a master that keeps the rules of AXI but is ready for one cycle only never gets its write response (the write is carried out) or its read data; write data offered right after the data of the previous write, before their address, are accepted and thrown away and their write never gets a response; as long as a read address is on offer in every cycle no write address is accepted.", "quantifier": "all histories of both buses, all masters, all continuations", "why_tests_cant": "absence of a response at any later time, for all continuations", "anchors": ["migen_src/core_axi_lite.py:CoreAxiLite", "migen_src/dma_axi_lite.py:DMAAxiLite"]}
{"id": "C94", "title": "The 64-bit stream core over frames ended normally or by force", "statement": "The stream core with 64-bit input words, and its shipped netlist, after power-up or any external reset: at every moment of every run the pixels that have gone into the core are, in order and without gaps, the first ones of the words that were in the source or came to it, and all but at most six of those in the words taken from it. After any number of frames, each ended normally or by force, the next frame that ends normally decodes to exactly the W*H pixels that have gone into the core since the last reset cycle, a frame that is ended by force to its leading pixels, and the reset cycle after a normal end takes no pixel; if words arrive and are taken again and again, frame follows frame for ever.", "quantifier": "all sequences of input words, all arrival and ready schedules, all mixtures of normal and forced ends", "why_tests_cant": "runs of any length with any mixture of ends, and frames for ever", "anchors": ["migen_src/beta_integration_fifo_axistream.py:BetaIntegrationFIFOAxiStream", "verilog_src/beta_integration_fifo_axistream.v"]}
{"id": "C95", "title": "The software decoder reads files with any number of components and segments in any order", "statement": "A lossless-JPEG file whose frame header, Huffman table and any number of application and comment segments come in any order (the table possibly repeated for several destinations), with any number of components of up to 15 bits, at least as many samples per line and component as components, coded with predictor 1, is opened by lj92_open with the right dimensions and lj92_decode gives exactly the coded samples, row by row with the requested gap, through the linearization table if one is given, and changes nothing else. The same holds for one component with every predictor (up to 14 bits), and for the frames of the core behind any such header. Limits: a fill byte FF before a marker, which T.81 allows, makes lj92_open fail; if the components have different tables the last one is used for all and wrong samples are returned without an error.", "quantifier": "all images, all component counts, all segment orders, all legal tables", "why_tests_cant": "all segment orders and contents, images of any size", "anchors": ["liblj92/lj92.c:find", "liblj92/lj92.c:parseHuff", "liblj92/lj92.c:parseSof3", "liblj92/lj92.c:parseBlock", "liblj92/lj92.c:parseImage", "liblj92/lj92.c:parseScan", "liblj92/lj92.c:lj92_decode"]}
{"id": "C96", "title": "Which memory the software decoder touches for files with several components", "statement": "For every file of C95 - but with any of the predictors 1 to 5 and 7 for any number of components, lines of any width, or predictor 6 for one component - lj92_open touches only the file and its look-up table, and lj92_decode returns, reads at most three bytes beyond the code of the image (so never beyond the file if four bytes follow the code), stays inside the look-up table, the statistics array and the row buffers, reads the linearization table only up to the stated length, and writes only places in the rows of the image. This includes the files with several components and predictors 2 to 7 that are decoded to something wrong (C67). Limit: lj92_open changes the file in memory, it sets the destination byte of each Huffman table to 0.", "quantifier": "all images, all component counts, all segment orders, all legal tables, all linearization tables, all contents of the memory behind the file", "why_tests_cant": "all segment orders and contents, images of any size, arbitrary memory contents", "anchors": ["liblj92/lj92.c:find", "liblj92/lj92.c:parseHuff", "liblj92/lj92.c:parseSof3", "liblj92/lj92.c:parseBlock", "liblj92/lj92.c:parseImage", "liblj92/lj92.c:nextdiff", "liblj92/lj92.c:parseScan", "liblj92/lj92.c:lj92_decode"]}
{"id": "C97", "title": "What the software decoder makes of a file that is damaged, cut, or ended by force", "statement": "If a file (predictor 1, any number of components, segments in any order) states an image of C*X by H samples but its code is right for the first samples only - behind them anything may follow, as after an interrupted transfer - lj92_open and lj92_decode still return without an error, the image starts with these samples, and no place outside the rows of the image is written (with a linearization table if it covers all 16-bit values). In particular a frame that the beta core ended by force (marker FFFE), with its markers stripped and a full-size header in front, is read this way: for every k such that the code of the first k accepted pixels fits into whole stuffed bytes of the frame, the first k pixels of the result are the accepted ones. From every cut of a stuffed string all but its last byte is such whole bytes. So the host cannot tell from the decoder that a frame was incomplete: it has to look at the end marker. Limits: the decoder does not check the length of the file, so this needs readable memory behind it (the theorems are for arbitrary contents of that memory); and behind the damage it can write its class statistics (sixteen entries) at index 16, or, if the code reaches look-up table entries no code word fills, use whatever the memory held.", "quantifier": "all images, all lengths of the right part, all contents behind it, all segment orders, all legal tables, all runs of the core that end by force", "why_tests_cant": "arbitrary bytes behind the damage, images of any size, all schedules of the core", "anchors": ["liblj92/lj92.c:nextdiff", "liblj92/lj92.c:parseScan", "liblj92/lj92.c:lj92_open", "liblj92/lj92.c:lj92_decode", "migen_src/beta_integration.py", "migen_src/force_end.py"]}
{"id": "C98", "title": "The 40-bit stream core after frames that ended by force", "statement": "The core with a 40-bit output stream (RTL and netlist), after any number of frames that ended normally or by force (marker FFFE) and with a receiver that did anything in the earlier frames: the pixels that have gone into the core are at every moment, in order and without gaps, those of the source; a frame during which the receiver is always ready comes out as at most three old words (left by the earlier frames) followed by the five-byte groups of its 16-bit words, of which at most two are still inside at its end; a receiver that starts at the first three consecutive words FFFFFFFFFF gets exactly the bytes between the markers of a normally ended frame, which decode to its W*H pixels, and of a frame ended by force bytes that decode to its leading pixels; and frame follows frame for ever while words arrive and the receiver is ready again and again. The packer is not emptied at a forced end: its old words FFFEFFFEFF come out in front of the start marker of the next frame, and a receiver that only skips leading words FFFFFFFFFF takes them for data.", "quantifier": "all frames, all ways they ended, all schedules of source and receiver in the earlier frames, all words, all register-file limits, all start states of the netlist", "why_tests_cant": "unbounded histories of frames with two kinds of ends, all packer states that they can leave behind", "anchors": ["migen_src/beta_integration_fifo_lvds.py:BetaIntegrationFIFOLVDS", "migen_src/b16_b40.py:B16B40", "migen_src/b64_b32.py", "migen_src/force_end.py", "migen_src/markers.py", "verilog_src/beta_integration_fifo_lvds.v"]}
{"id": "C99", "title": "What a frame of the design with memory reader and writer leaves in memory", "statement": "The design that reads the image from memory and writes the code to memory (RTL and netlist), for every frame after any reset, whether it ends normally or by force: the data between the markers decode to the first k of the pixels read, for every k whose code fits into them; the 16-bit words in memory after the reset cycle (four to a beat, the first in the upper bits, without the one additional beat number 16 there may be) are the frame's first words in order, and at most 139 of the words given before the last one are missing; behind the start marker they decode to the first k pixels for every k whose code is in memory; and when the frame has ended normally and every code has at least m bits, all but the last 2112/m pixels can be decoded from memory: with the default table and the shipped size at least all but the last 528 of the 4096*3072.", "quantifier": "all images, all tables, all sizes, all schedules of the memory and the register bus, both kinds of frame end, all start states of the netlist after a reset", "why_tests_cant": "every place in the code at which the writer can be when the reset discards packer and FIFO, for every image", "anchors": ["migen_src/beta_integration_fullaxi.py:BetaIntegrationFullAxi", "migen_src/axihp_writer.py", "migen_src/axihp_reader.py", "migen_src/b16_b64.py", "migen_src/force_end.py", "migen_src/auto_reset.py", "verilog_src/beta_integration_fullaxi.v"]}
{"id": "C100", "title": "The decoder built with SLOW_HUFF does the same", "statement": "lj92.c compiled with SLOW_HUFF (codes found bit by bit in the tables maxcode, mincode, valptr instead of with a look-up table): every file of a nonempty image, of any number of components, coded with any predictor and any legal Huffman table, with difference classes up to 15 and its segments in any order, is opened by both builds with the same dimensions, and decoding writes exactly the same values or fails in both, for every linearization table, gap between rows and group length (only predictor 6 needs one component and 32 by 2 samples); no array the slow path allocates is left. So the slow build also decodes every such file coded with predictor 1, every one-component file of up to 14 bits coded with any predictor, and the files made from the core's frames, to the image. With an empty table (image without lines), or on data that are not a code, the slow build reads outside its arrays where the normal build does not.", "quantifier": "all images, sizes, numbers of components, predictors, legal tables, segment orders, bytes after the file, linearization tables, undefined-shift values", "why_tests_cant": "two different algorithms (table look-up with prefetch of bits, canonical search bit by bit) must agree at every bit position of every file; the SLOW_HUFF build is never compiled by the makefile", "anchors": ["liblj92/lj92.c:parseHuff", "liblj92/lj92.c:nextbit", "liblj92/lj92.c:decode", "liblj92/lj92.c:receive", "liblj92/lj92.c:nextdiff", "liblj92/lj92.c:lj92_open", "liblj92/lj92.c:lj92_decode"]}
{"id": "C101", "title": "From pixels through the shipped Verilog and lj92.c back to pixels", "statement": "A frame that the netlist of the beta core ends with FFFF, its words between the markers written as bytes behind any legal header (segments in any order, four components of 1024*3072 samples of 12 bits, default table) and before anything, is opened by lj92_open with these dimensions and decoded by lj92_decode, in both builds, to exactly the 4096*3072 accepted pixels; a frame ended by force is decoded without an error, and its first k pixels are right for every k whose code is in the frame. The same as the first holds for every frame, after any number of normally ended ones, of the netlists with a 32-bit stream, with a 64-bit FIFO, and with a 40-bit link with a receiver that is always ready, for the pixels number n*4096*3072 to (n+1)*4096*3072-1 of those that were sent. After any number of frames of which some were ended by force, a frame that ends normally is decoded to the 4096*3072 pixels that have gone into the core since the last reset, and one that is ended by force to its leading pixels; on the 40-bit link for a receiver that takes the data from three words FFFFFFFFFF on. For the netlist of the design with memory reader and writer: the bytes that it has written to memory up to the reset cycle, without the start marker and without the one additional beat there may be, behind such a header, are decoded by lj92_decode to the pixels read from memory: to the first k for every k whose code (and a byte) is there, and, when the frame ended normally, to at least all but the last 530 of the 4096*3072.", "quantifier": "all images, all schedules of pixels, receivers, memories and register buses, all starts of a frame, all headers, all bytes behind the file, all linearization tables, both builds of the decoder, both kinds of frame end", "why_tests_cant": "no test in the repository joins hardware and decoder; the result must hold for every image and every place at which the hardware can be when it resets itself", "anchors": ["verilog_src/beta_integration.v", "verilog_src/beta_integration_axistream.v", "verilog_src/beta_integration_fifo_axistream.v", "verilog_src/beta_integration_fifo_lvds.v", "verilog_src/beta_integration_fullaxi.v", "liblj92/lj92.c:lj92_open", "liblj92/lj92.c:lj92_decode", "migen_src/beta_integration.py", "migen_src/beta_integration_fullaxi.py"]}
{"id": "C102", "title": "What the SLOW_HUFF build of lj92.c does with any file", "statement": "Whatever bytes lj92_open is given: reading a table segment succeeds exactly if the segment ends before the end of the file, is at least 19 bytes long and states at least one code; the table of an opened file comes from such a segment of the file. Whatever its counts and values, legal or not, and whatever the scan data, the decoder finds the next difference exactly if the bits begin with one of the codes that T.81 Annex C derives from the counts and that has a value; it then takes the shortest such code, its class and so many bits, and nothing more; lj92_decode (predictors 1 to 5 and 7 and 0, no linearization table) ends without error and without leaving the arrays of its tables exactly if the data hold one such difference per sample. A successful call writes nothing outside the rows of the picture; with predictor 1 (at least as many samples per line and component as components) what it writes there is what T.81 makes of the differences in the data. Behind a legal header (class 16 not in its table, predictor not 6) with any data, whenever this build decodes without an error the normal build does so too and makes the same memory of it. With predictor 1, if any data behind such a header hold one difference per sample, the normal build makes of them what T.81 makes of the differences, whatever malloc returned and also if samples leave the precision. (The converse fails: on data that are no code the normal build uses the part of its look-up table that it never filled, so its picture depends on what malloc returned.)", "quantifier": "all files and memories (any bytes, legal or not), all table segments, all scan data, all image sizes, all row gaps", "why_tests_cant": "a test decodes a few legal files; here the files are arbitrary, with illegal tables, truncated or corrupt data and 16-bit dimensions", "anchors": ["liblj92/lj92.c:parseHuff", "liblj92/lj92.c:nextbit", "liblj92/lj92.c:decode", "liblj92/lj92.c:receive", "liblj92/lj92.c:extend", "liblj92/lj92.c:nextdiff", "liblj92/lj92.c:parseScan", "liblj92/lj92.c:parseImage"]}
