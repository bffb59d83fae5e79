# Formal model of shiguredo/cpp-mp4 in Lean 4

The model and proofs are in `lean/Verif/`; the properties in `properties.jsonl`, their status and theorem names in
`MANIFEST.json`, the attempts to break them in `seeded/LOG.jsonl`.

## Layout of the development

* `Core`, `BitIO`: bytes, streams, the `bitio::Writer`/`bitio::Reader` objects and functions, and the two kinds of
  programs (`W`, `R`) in which the boxes are written.
* `Model`: the library, function by function, every definition citing file and lines. `Model/Boxes`: the box classes;
  `Model/Box`: the sum type of all classes and the registrations; `Tree`, `BoxInfo`, `Header`: `BoxInfo` and headers;
  `Reader`: `SimpleReader`; `Track`, `H264`: tracks; `Writer`: `SimpleWriter`, `FaststartWriter` and whole programs
  (`Call`, `Session`); `Float`: `float`/`double` arithmetic; `Text`, `Calendar`, `Dump`: the texts printed by `read`.
* `Spec`: what the properties are stated with: ISO layouts (`Layout*`), nested encoding of a forest (`Tree`), expansion of
  sample tables and lookup of a sample (`Track`, `Writer`), Annex B (`H264`), what a program asks for (`Program`, `Movie`), what
  survives storage (`Stored`), which bytes a payload needs (`Needed`), what a dump shows (`Dump`), the calendar (`Calendar`), known types (`Registry`), IEEE rounding (`Float`).
  These use the types of the model (the boxes' fields, calls and their arguments), not its functions.
* `Lemmas`: proofs. `Props`: the theorems named in the manifest, each with an example that meets its hypotheses (in the same file, in `Props/*Examples.lean` or in `Props/Cases{A,B,C}.lean`).

## How the code is modelled

* **Integers.** A C++ integer of width `w` is `BitVec w`; signed ones are read with `BitVec.toInt`. Container sizes, bit counts
  and stream positions are `Nat` where they count things that exist in memory, and reduced modulo 2^64 / 2^32 where the
  code's wrap-around matters (header sizes, descriptor sizes, timestamps, run lengths).
* **Streams.** A file is a byte list with a put or get position; writing behind the end fills the gap with zeros, writing inside
  overwrites. File streams and string streams differ in seeking behind the end (`SimpleReader.file`).
* **Encoders** are programs in `W`: the bits passed to `writeBit` and how the call ended (result, exception, undefined
  behaviour). Bits written before an exception stay written.
* **Decoders** are programs in the free monad `R` over what the code does with the reader and its stream (readBit, distance to
  the end, tellg, seekg, throw). `R.runC` executes them on the concrete object, `R.run` on a bit list with a
  cursor; the two are proved equivalent.
* **Exceptions and undefined behaviour** are outcomes: `Err.eof`, `Err.exc`, `Err.ub` (over-wide shifts, out-of-range
  indexing, dereferencing an exhausted stream iterator).
* **Uninitialised members** that a `readData` does not set are parameters (`Env`), universally quantified.
* **User programs** are lists of `Call`s (track construction, `addData`, `terminateCurrentChunk`, `setMediaTime`,
  `getAndUpdateNextTrackID`) followed by the closing sequence of the examples in `/repo/example`.

## Trusted base

* Lean 4.33.0's kernel, and the axioms listed below. No axioms of our own, no compiled evaluation.
* Mathlib is used only in `Spec/Float` and `Lemmas/Float` (reals for C59), checked by the same kernel.
* The reading of the C++ text into the model. The code was never run; the model was run on the test vectors of the repository.
* Assumptions about the platform: I/O operations succeed except reading past the end (C69 is about the writing side on devices that fail;
  there a byte counts as stored when the stream buffer takes it, what is lost later when a stream is flushed or closed is outside, and
  writes to the intermediate file of `FaststartWriter` succeed; C79 is about that file on a C library and file system that fail); memory suffices (in particular
  `resize(entry_count)` before the entries are read); files are below 2^63 bytes; `a() + b()` where both operands do I/O is
  evaluated left to right (unspecified in C++; the code relies on it in several boxes); isprint in the "C" locale; `float` is IEEE
  binary32 and `double` binary64 with rounding to nearest even and FLT_EVAL_METHOD 0 (only C59 and later floating-point
  claims); nothing is modified concurrently.
* Libraries outside the repository are modelled, not verified: the part of {fmt} 9.1.0 that is used (`Model/Text.lean`; assumes exact
  decimal rounding of floating-point values), `gmtime_r` and the format `%FT%TZ` of `fmt/chrono` (`Model/Calendar.lean`).
* `Conformance/*` evaluates the model on the 104 box vectors of `test/box_types.cpp` in the kernel (bytes, sizes and dump texts), and on the
  assertions of the other unit tests (`UnitTests.lean`, `UnitBoxInfo.lean`: box headers, types, bit streams, endianness, times, NAL units, sample tables, dump).
  These are tests of the reading of the C++ text, not proofs, and no claim rests on them. `Conformance/CallSites.lean` proves that the boxes
  which `Model/Track.lean` and `Model/Writer.lean` build are those of the constructors (C70) on the parameters written in the code.
* Objects in memory (`Model/Memory.lean`, and `Model/MemoryWriter.lean` for the writers): headers, boxes and box infos are cells of a heap, and access to a cell that does not exist is undefined
  behaviour; only C74 and C75 use it; the other claims are about boxes as values, which these two connect to the heap.
* Not modelled: logging, stream operators, `src/cli`, version strings, failing seekg and tellg of the input stream, the public `setOctet`/`setWidth`/`getOctet`/`getWidth` accessors of the
  bit streams, the naming of the temporary file, data races.

## Axioms

`#print axioms` on every theorem named in MANIFEST.json; no other axiom occurs.

* `propext`, `Classical.choice`, `Quot.sound`: the 306 theorems not listed below.
* `propext`, `Quot.sound`: C01_reader, C01_reader_eof, C02_uint_ub, C02_uint_errors, C03_int_truncation_witness, C08_language_capital_witness, C09_flags_remove_witness, C10_header_stale_size_witness, C12_always_ends, C15_mdhd_language, C16_containers, C25_iods, C29_headers_of_the_file, C36_telescope, C36_exact, C37_append_twice, C45_zero_refused, C49_box_map, C49_registered, C50_ofString, C50_toText_injective, C51_format_converted, C51_format_before_1970, C53_avcC_partial_output, C55_readData, C55_string_stream, C55_file_stream_witness, C63_which, C64_every_box, C65_forgery, C66_numerals, C66_quotes_not_escaped, C67_witness, C69_header_silent, C69_copy_never_ends, C70_refused, C71_simple_samples, C79_constructor, C79_copy_ends, C79_determined, C79_others, C82_faststart_replaces, C87_saved, C87_sgpd_witness, C87_wave_witness, C88_exact, C94_not_seekable, C97_movie, C98_steps_back.
* `propext`: C06_pascal_too_long, C06_pascal_ambiguity, C32_wraps, C34_needs_order, C35_terminate_after_finalize, C36_durations, C50_matchWith, C51_convert_bijective, C70_defaults.
* none: C37_idempotent, C70_defaults_full_boxes.

## Per property

| id | property | model and proof | theorems in |
|---|---|---|---|
| C01 | Bit stream is a FIFO | Concrete `Writer`/`Reader` objects over byte files, refined to bit lists; induction on the bits. | `Props/BitIO` |
| C02 | Unsigned integer round trip | `write_uint`/`read_uint` per 8-bit group as in the template; over-wide shifts are undefined behaviour; induction on the groups. | `Props/BitIO` |
| C03 | Signed integer round trip | Same for `write_int`/`read_int`; exact result and witness out of range. | `Props/BitIO` |
| C04 | Varint round trip | Induction on the 7-bit groups; above the limit the exact truncation. | `Props/BitIO` |
| C05 | NUL-terminated string round trip | Induction on the string. | `Props/BitIO` |
| C06 | Pascal string recognition | Reader program with tellg/seekg; case split on the peeked byte; witness of the ambiguity. | `Props/BitIO` |
| C07 | Big-endian conversions are mutually inverse | Bit-vector arithmetic in `Nat`. | `Props/Basics` |
| C08 | Language code round trip | Arithmetic on 5-bit fields; finite byte lemmas by kernel evaluation over all 256 values. | `Props/Basics` |
| C09 | FullBox flag algebra | Bit-wise extensionality; `removeFlag` is an exclusive or: exact law, the case where it clears, the witness where it sets. | `Props/Basics` |
| C10 | Box header round trip | Header write on the file model, then header parse; three forms. | `Props/Header` |
| C11 | Header size is chosen by data size | Arithmetic modulo 2^64. | `Props/Header` |
| C12 | Box tree layout | Mutual induction on trees and forests; loop of `adjustOffsetAndSize` shown to end after at most the stated rounds. | `Props/Tree` |
| C13 | Box tree serialization | Mutual induction on trees over the file model, against the nested encoding `Spec.encode`. | `Props/Tree` |
| C14 | Declared data size equals written size | Per class, from the layout by computing lengths; one theorem over the sum type of all classes. | `Props/BoxSizes` |
| C15 | On-disk layout of every box | Per class: `writeData` emits exactly the field list in `Spec/Layout*`. | `Props/BoxSizes` |
| C16 | Round trip: fixed-layout boxes | Per class: `readData` executed symbolically on the layout. | `Props/RoundTripA` |
| C17 | Round trip: versioned boxes | Same, with the fields fitting the version's widths. | `Props/RoundTripA` |
| C18 | When a 64-bit value survives version selection | If and only if, per field. | `Props/RoundTripA` |
| C19 | Round trip: sample tables | Same as C16 with induction on tables. | `Props/RoundTripA` |
| C20 | Round trip: movie fragments | Same, case split on flags. | `Props/RoundTripA` |
| C21 | Round trip: sample entries | Same; also below `wave`. | `Props/RoundTripB` |
| C22 | Round trip: codec configuration | Same; what happens to an avcC with 32 or more SPS is characterised. | `Props/RoundTripB` |
| C23 | Round trip: strings and metadata | Same; witness that a padded hdlr is unreadable. | `Props/RoundTripB` |
| C24 | Round trip: esds descriptors | Induction on descriptors, flat and nested. | `Props/RoundTripB` |
| C25 | readData reports what it consumed | Each reader program is shown to report what it consumes, for arbitrary payloads; exact excess for avcC, esds, iods. | `Props/ReadExact` |
| C26 | Round trip: sample group descriptions | Same as C16 with induction on entries. | `Props/RoundTripB` |
| C27 | Round trip: opaque payloads | Same. | `Props/RoundTripB` |
| C28 | SimpleReader terminates | The recursive reader takes fuel; theorem: fuel from the file size suffices, and the visited headers are bounded. | `Props/Reader` |
| C29 | SimpleReader rejects impossible sizes | Case analysis at every header met in a run. | `Props/Reader` |
| C30 | Boxes tile the file and stay inside their parents | Induction over runs: children tile their parent. | `Props/Reader` |
| C31 | Reading a written file gives back the tree | Mutual induction on the forest with per-class round trips. | `Props/ReadBack` |
| C32 | stts run-length encoding | Induction on durations against the ISO expansion. | `Props/Track` |
| C33 | stsc run-length encoding | Same for chunks. | `Props/Track` |
| C34 | Chunk offset box | Ordered offsets; witness that order is needed. | `Props/Track` |
| C35 | Track bookkeeping | Invariant over histories. | `Props/Track` |
| C36 | Durations telescope | Invariant over histories. | `Props/Track` |
| C37 | finalize is idempotent | Direct. | `Props/Track` |
| C38 | Samples are where the tables say (SimpleWriter) | Program = list of calls; refinement to an event list; invariant linking chunk offsets and file; ISO lookup function as specification. | `Props/Writer`, `Props/WriterExamples` |
| C39 | Samples are where the tables say (FaststartWriter) | Same with the intermediate file and the shift by the final header sizes. | `Props/Faststart` |
| C40 | SimpleWriter file layout | From the state machine over the file model. | `Props/Writer` |
| C41 | FaststartWriter file layout | Same. | `Props/Faststart` |
| C42 | Faststart offset fixpoint terminates | Fuel-indexed loop; the moov size can grow only once per track and once for mdat. | `Props/Faststart` |
| C43 | Intermediate file copy | Block copy loop, induction on the remaining length. | `Props/Faststart` |
| C44 | Sample data is never overwritten | Every write leaves the sample range alone; every prefix of every write (crash points). | `Props/Writer` |
| C45 | Track ids | Invariant; sharp bound. | `Props/Faststart`, `Props/Ids` |
| C46 | H.264 NAL segmentation | Scanner on joined NAL units, induction on the units. | `Props/H264` |
| C47 | H.264 scanner is safe and makes progress | Induction on the scan index. | `Props/H264` |
| C48 | H.264 sample framing | Induction on the NAL list. | `Props/H264` |
| C49 | Box registry lookup | Map refinement over histories; own registrations compared with `Spec/Registry` for all types. | `Props/Basics`, `Props/Registry` |
| C50 | Box type matching and text form | Case analysis over bytes. | `Props/Basics` |
| C51 | Times: epochs and calendar | Model/Calendar.lean models gmtime_r and the %FT%TZ format; Spec/Calendar.lean defines the Gregorian calendar by lengths of months and years. Proof: the day-to-date conversion is inverted arithmetically; injectivity from uniqueness of dates. | `Props/Basics`, `Props/Calendar` |
| C52 | Box path and context | Invariant over constructor calls. | `Props/Tree` |
| C53 | What a rejected writeData leaves behind | The exact throwing condition and the exact output up to the throw. | `Props/BoxSizes` |
| C54 | Sample count of a constant-size stsz | If and only if. | `Props/RoundTripA` |
| C55 | No undefined behaviour while reading | Undefined behaviour is an outcome of the model; shown unreachable in the stated cases, witness otherwise. | `Props/ReaderUb` |
| C56 | Byte-wise access and seeking on bit streams | State machines with refused calls; induction on the call list. | `Props/ByteIO` |
| C57 | The sample tables of both writers say what was added | Refinement of programs to events, then C32-C36 per track, inside the tree that is written. | `Props/Movie` |
| C58 | Track and movie parameters reach the file unchanged | Same, for the parameter boxes. | `Props/Movie` |
| C59 | Durations given as float seconds end up right in the movie | IEEE rounding modelled on integers, shown to satisfy an independent real-number definition; error bounds over the reals. | `Props/Duration` |
| C60 | Reading a finished file gives back the movie | C57/C58 composed with C31/C61. | `Props/ReadMovie` |
| C61 | What a reader gets back, for every class and every nesting | Round trips of all classes with exact losses, mutual induction on the forest. | `Props/Stored` |
| C62 | Reading loses nothing: a box that was read writes back the bits that were read | Inversion of reader programs: the consumed bits determine, and are determined by, what was read. | `Props/Rewrite` |
| C63 | Exactly which payloads readData accepts | Each reader program is shown to take exactly the bits its own fields call for (`TakesAt`), against `Spec.needed`. | `Props/Needed` |
| C64 | Structure of the dump | Model/Dump.lean models toStringOnlyData of every class, Box/BoxHeader/BoxInfo::toString and the printing loop of read; Spec/Dump.lean says what lines there are. Proof by induction over the reader's recursion (every box read has a header, path length = depth + 1) and over trees. | `Props/Dump` |
| C65 | The dump can be read back | Line.text is proved injective (types are a prefix code before `]`, numbers end at non-digits, fields by C66) and free of line breaks; the forged pair of files is evaluated by the kernel. | `Props/Dump` |
| C66 | Text of a box | Every class is compared with its list of fields in Spec/Dump.lean; the notation is proved uniquely readable by induction over values. | `Props/DumpText` |
| C67 | Undefined behaviour while printing | From C64, C66 and C51: which boxes show times, which times cannot be converted; C55 excludes other undefined behaviour. | `Props/Dump` |
| C68 | The movie box has exactly the boxes the format asks for | Spec/Movie.lean lists the outline (type and nesting of boxes) of a trak for each codec as literal text; proof by computing the outline of the tree every appendTrakBoxInfo builds, and by induction over the program's tracks. | `Props/Movie` |
| C69 | Which failures of the output device the writers report | Model/Faults.lean repeats the writing side on a stream whose buffer asks a device whether it takes a byte or a seek, with `good()` set or not set exactly by the calls that do so in C++; Spec/Device.lean has the kinds of devices. Proof: simulation between the program on the device and on one that accepts everything (Lemmas/Sim), with the invariant that either nothing was refused and the states are the same, or a byte at a position before the current one was refused; a full disk by an invariant on the length of what is stored. | `Props/Faults`, `Props/FaultsExamples` |
| C70 | A box built from parameters contains those parameters | Model/Construct.lean has, for each class, the parameter structure with its default values, the constructor as a function from parameters to the box (member initialisers and body statements in order), and `Construction`, one case per constructor call; Spec/Construct.lean gives the type and the list of (width, value) fields from the parameters alone, without mentioning boxes. Proof: the layout of the built box (the one C13-C15 are about) is the one of the specification, by case analysis and induction over entry lists; then the exact write theorem of the boxes. | `Props/Construct` |
| C71 | What a program that is killed while writing leaves behind | The stream of Model/Faults.lean keeps a ghost log of the bytes stored and their positions, in the order of time; Spec/Crash.lean folds the first n stores into a file and gives, independently of the model, the file a stopped program leaves behind. Proof: a simulation over the calls shows the log of every session to be the stores of ftyp, of the samples, of the 16 header bytes and of moov (SimpleWriter), or those of the finished file in order (FaststartWriter); the reading statements follow from C72 and C73. | `Props/Crash` |
| C72 | A file that was cut off inside a box is rejected | Spec/CutOff.lean builds a file from raw boxes (size field, type, content); the theorem is about the model of Reader::read. Proof: by C30 a successful read tiles the file, and by C29 each header is at the end of the previous box, so the reader would have to arrive at the start of the cut box, whose size exceeds the file. | `Props/CutOff` |
| C73 | A last box without a size extends to the end of the file | As C61 for the boxes in front; the last box is followed through read_box_header (size 0 becomes the remaining size) and the opaque or unsupported constructor. | `Props/ToEof` |
| C74 | The reader frees every object exactly once | Model/Memory.lean transcribes the reader onto a heap of headers, boxes and box infos with new, delete and pointers; access to a missing object is undefined behaviour. Proof: a simulation between the heap program and the reader on values of Model/Reader.lean, with an invariant that the objects created since a point are exactly those of the trees hanging below the parent (each at its own address), plus at most one stray header after an exception; the destructor then walks those trees. | `Props/Memory` |
| C75 | The writers free every object exactly once | Model/MemoryWriter.lean transcribes BoxInfo::adjustOffsetAndSize, BoxInfo::write, the construction of boxes and both writers onto the heap of Model/Memory.lean. Proof: simulation lemmas (Lemmas/MemoryTree, MemoryBuild, MemoryWriter, MemorySteps, MemoryFaststart) between each heap program and its counterpart on values, with the invariant that the objects that exist are exactly those of moov, each at its own address, plus a list of at most three strays that is empty until an exception. | `Props/MemoryWriter` |
| C76 | A reader reads its file once | readFrom and readsM (Model/Reader.lean, Model/Memory.lean) are read with the stream at a given position and a program of many calls with exceptions caught. Proof: the invariant of C28-C30 says that a loop that returns from position p has found total size many bytes from p on, which is impossible for p > 0; on the heap the simulation of C74 is composed over the calls, strays accumulating. | `Props/Again` |
| C77 | Every byte of mdat belongs to exactly one sample | Spec/Places.lean defines where the program put each sample and where the tables of a trak box say they are, and Partition. Proof: the session invariant of C38 is extended by the places of the closed and of the open chunk; at finalize they are the ranges chunkRanges computes from the tables; that the places partition the bytes is an induction over the events. | `Props/Places`, `Props/PlacesExamples` |
| C78 | What an accepted file makes the reader hold | Spec/Held.lean counts the elements of every vector and string of every class. Proof: for every readData, by its structure, 8 bits are reported per element (Lemmas/Held.lean); with C25 (bits reported against bits in the payload) the bound per box; the bound for a file by induction over readBox and its loop, which read boxes from disjoint places. The exception by C61 on the tree of one trun box. | `Props/Held` |
| C79 | FaststartWriter's intermediate file under failures of the C library and the file system | Model/Intermediate.lean: the object with its FILE, file and output stream, each call on the FILE asking an oracle; the state is kept when a call throws. Histories are sequences of calls whose outcomes are recorded. Proof: an invariant by induction over the history (Lemmas/IntermediateHeld.lean) relating the state to the recorded outcomes; the loop of copyMdatData by induction over its rounds; with an oracle that never fails the functions are those of Model/Faults.lean (C79_perfect). | `Props/Intermediate` |
| C80 | SimpleReader on a stream that changes or cannot be read everywhere | Model/Live.lean: the reader with the size found by the constructor and the set of readable positions as parameters. Proof (Lemmas/Live.lean): by induction over readBox and its loop, the run is compared with the run of Model/Reader.lean: what ends normally is the same run and all bytes of its boxes are readable; otherwise equal or undefined; the top-level boxes tile the file (C30), so all bytes are looked at; on a longer stream the headers and payloads inside the old size are the same. | `Props/Live` |
| C81 | Public calls of the writers in any order | Model/Order.lean: all public calls as a datatype, one step per call on the writer with the state of the intermediate file, keeping the state that an exception leaves. Spec/Order.lean states which calls are undefined in terms of the calls made before only. Proof (Lemmas/Order.lean): invariant over histories: ftyp size known iff writeFtypBox was called; all boxes of moov have headers iff laid out; file open iff no copyMdatData; the loop's sizes grow strictly below 2^64. | `Props/Order` |
| C82 | appendTrakAndUdtaBoxInfo called more than once | Model/Order.lean: n calls of appendTrakAndUdtaBoxInfo. Proof (Props/Repeated.lean): by induction over the calls, after T bytes of moves one more call ends at a fixed point S of the head size (appendLoop_ends of C20 for moved tracks), so that the offsets are moved by T + S instead of S. | `Props/Repeated` |
| C83 | Memory requested while reading, and an allocator that refuses | Model/Alloc.lean: the readData programs again with a command for each resize, run with an allocator given as an arbitrary function of the history. Lemmas/Alloc.lean: without that command they are the same programs. Proof: by induction over programs a run with an allocator either agrees with the plain run or stops at the first refusal (AllocRun), lifted through the loops and readBox (AllocReader); sums of requests are bounded by a program logic (AllocBox) and joined with C78; single requests by AllocBelow. | `Props/Alloc` |
| C84 | Positioning a stream at the boxes of a file | Model/Seek.lean: seekg with its failure conditions on string and file streams, the four seek functions. Spec/Seek.lean: the user's loop. Proof: from C30 (tiling) and C29 (headers stand in the file) by induction over the top-level boxes; termination by the distance to the end of the file. | `Props/Seek` |
| C85 | Loading a file and saving its boxes reproduces the file | Spec/Lossless.lean: `Tree.image` puts a tree together again from ISO headers, `writeData` and children; `Tree.Lossless` says which boxes keep their content. Proof: the tree read satisfies a local relation to the file (each header stands in the file, each content comes from a run of `readData` on the bytes behind it, the first child follows what was reported as read); with C30 (tiling), C62 (rewriting gives the bits consumed) and C25 (what is reported is what was consumed), by induction over the tree. | `Props/Lossless` |
| C86 | Files can be put one behind the other, and cut between root boxes | Spec/Concat.lean: `BoxHeader.moved`, `Tree.moved`, `Spec.followedBy`. Proof: a header and a content are read alike at offset `pos` of `B` and at `|A| + pos` of `A ++ B` (sub64 of total and offset is the same), and what is read inside `A` does not depend on what follows (accepted headers do not reach the total size); by induction on the fuel for boxes and on the loop for their children (Lemmas/Concat.lean, Lemmas/Split.lean). | `Props/Concat` |
| C87 | What uninitialised members contain does not show | Spec/Uninit.lean: `Spec.Alike` (same text, same bits written, same size), `Tree.Alike`, `Spec.SameResult`, `Spec.NoLength`. Proof: for every class, `readData` on two objects reads the same bits and gives alike contents, or ends with the same exception (Lemmas/Uninit.lean); the tree reader looks at contents only through sizes and child rules (Lemmas/UninitReader.lean, induction on the fuel). | `Props/Uninit`, `Props/UninitExamples` |
| C88 | How much call stack reading takes | Spec/Depth.lean: `readStack room`, the body of readBox with recursion limited to `room` calls and loops not limited; `Tree.height`. Proof: simulation with the model of `read` by induction on its fuel, both for a position that leaves room (|file| < pos + 8·room) and, on accepted files, exactly by height; lower bound by C61 on `nested n` (Lemmas/Depth.lean). | `Props/Depth` |
| C89 | What copying payloads costs | Spec/Copies.lean: `Spec.copied` (sum of the payload lengths of the headers that pass the size check), `Tree.copies` (largest sum along a way from the root). Proof: by induction on the tree with the tiling of C30, the number of headers of C28; lower bound on `nested n` (Props/Depth.lean) with the sizes of C61's read-back tree. | `Props/Copies` |
| C90 | The choice of writer changes only positions | Spec/SameMovie.lean: `Spec.withoutOffsets` (a tree with its stco/co64 boxes replaced). Proof (Lemmas/Away.lean): a simulation of the two writers call by call - the position of one stays a constant ahead of that of the other - so each track of one is the track of the other with its chunks moved; then the closed forms of both files from C38 and C39. | `Props/SameMovie` |
| C91 | Tracks do not influence each other | Spec/SameMovie.lean: `Spec.callsOn` (the calls on one track, as a program of their own). Proof (Lemmas/Project.lean): a track with its positions forgotten is changed by a call in a way that depends on nothing else (`Part`); induction on the calls of both programs. | `Props/Independent` |
| C92 | Where chunks end matters to the chunk tables only | Spec/SameMovie.lean: `Spec.withoutChunks`, `Spec.endsChunk`. Proof (Lemmas/Project.lean): the same with all chunks forgotten and equal writers; terminateCurrentChunk then changes nothing. | `Props/Independent` |
| C93 | The files of both writers are nested eight boxes deep and cheap to read | Spec/Copies.lean: `Spec.CheapToRead`, from the depth of C88 and the copies of C89. Proof (Props/WrittenDepth.lean): the height of the `moov` both writers build, by cases on the codec and induction on the tracks; what is read back has the height of what was written; then C61, C88 and C89. | `Props/WrittenDepth` |
| C94 | SimpleReader when seekg or tellg of its input fails | Model/Unseekable.lean: the reader with every call of `seekg` and `tellg` numbered, and which of them work; libstdc++'s rules for `failbit` and for a `tellg` that returns -1. Proof (Props/Unseekable.lean): box by box and loop by loop it does what `LiveReader` (C80) does with the size the constructor took, or it stops; an endless size (-1) never passes the check or the copy. | `Props/Unseekable` |
| C95 | The run-length tables are as short as possible | Meaning of the tables: `Spec.sttsDurations`, `Spec.samplesPerChunk` (Spec/Track.lean). Proof (Props/Shortest.lean): an stts table has at least as many entries as its durations have runs, and the one written has one for each; every entry of the stsc table begins where the number changes, and there any other table needs an entry too. The tables are unique: one with as many entries as runs has no empty entries and different neighbours, and such a table is determined by its durations; an ascending stsc table of that length begins its entries at the same chunks. | `Props/Shortest` |
| C96 | Which codec configurations can come back from a file | Meaning: `Spec.InRange` (Spec/Ranges.lean). Proof (Props/Ranges.lean): what `readData` of the three classes ensures, carried to all nested boxes by the induction of C67; a `Parameters` of C58 contains the configuration, so `Spec.CodecFits` is necessary, and C60 shows that it is sufficient. | `Props/Ranges` |
| C97 | Which times come back exactly | Meaning: `Spec.Parameters` and `Spec.Movie` with all bits (`Spec.inObjects`), `Spec.TimesFit`. Proof (Props/ExactTimes.lean): by C60 the file says what 32-bit fields can hold (`Spec.inFile`); that equals what was asked exactly for values in range. | `Props/ExactTimes` |
| C98 | The times a player computes from the file | Meaning: `Spec.decodeTimes` and `Spec.TimesInOrder` (Props/DecodeTimes.lean). Proof: induction on the times; one step is exact iff the 64-bit difference reduced to 32 bits is the difference; C60 carries it to the file. | `Props/DecodeTimes` |
