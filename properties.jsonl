{"id": "C01", "title": "Bit stream is a FIFO", "statement": "Bits given to bitio::Writer::writeBits, in any number of calls of any widths and at any bit alignment, come back from bitio::Reader in the same order whatever the widths of the reads; each completed group of 8 bits is stored as one byte, most significant bit first, and nothing else in the file changes.", "quantifier": "every sequence of writes, every sequence of read widths, every alignment, every prior content of the stream", "why_tests_cant": "the number of write/read partitions and alignments is unbounded", "anchors": ["src/bitio/writer.cpp:Writer::writeBits", "src/bitio/writer.cpp:Writer::writeBit", "src/bitio/reader.cpp:Reader::readBits", "src/bitio/reader.cpp:Reader::readBit"]}
{"id": "C02", "title": "Unsigned integer round trip", "statement": "write_uint(v,size) followed by read_uint(size) at any bit position returns v mod 2^size, both report size bits, and exactly size bits are produced and consumed; the most significant bit goes first.", "quantifier": "every integer type width, every value, every size that does not shift by the type's width or more, every following content", "why_tests_cant": "2^64 values times all sizes and alignments", "anchors": ["include/shiguredo/mp4/bitio/bitio.hpp:write_uint", "include/shiguredo/mp4/bitio/bitio.hpp:read_uint"]}
{"id": "C03", "title": "Signed integer round trip", "statement": "write_int(v,size) followed by read_int(size) returns v for every v representable in size bits two's complement; a non-negative v that is not representable silently loses its top bit.", "quantifier": "every type width, value, size >= 1 and following content", "why_tests_cant": "2^64 values times all sizes", "anchors": ["include/shiguredo/mp4/bitio/bitio.hpp:write_int", "include/shiguredo/mp4/bitio/bitio.hpp:read_int"]}
{"id": "C04", "title": "Varint round trip", "statement": "write_uvarint of a w-byte integer emits exactly w bytes; read_uvarint returns the value whenever it is below 2^(7w); larger values (for uint32: 2^28 and above) are silently truncated modulo 2^(7w).", "quantifier": "every value of every unsigned type, every following content", "why_tests_cant": "2^32 / 2^64 values", "anchors": ["include/shiguredo/mp4/bitio/bitio.hpp:write_uvarint", "include/shiguredo/mp4/bitio/bitio.hpp:read_uvarint", "include/shiguredo/mp4/bitio/bitio.hpp:uvarint_size"]}
{"id": "C05", "title": "NUL-terminated string round trip", "statement": "read_string applied to the output of write_string returns the same string and consumes exactly its length + 1 bytes, provided the string has no NUL and the bit budget covers it; with a budget that ends earlier it returns the prefix that fits and consumes exactly the budget.", "quantifier": "every byte string, every budget that is a multiple of 8, every following content", "why_tests_cant": "unbounded strings", "anchors": ["src/bitio/bitio.cpp:write_string", "src/bitio/bitio.cpp:read_string"]}
{"id": "C06", "title": "Pascal string recognition", "statement": "read_pascal_string recovers a Pascal string written by write_pascal_string when it fills the budget exactly, falls back to a C string when the first byte does not equal the remaining length, leaving the stream as if it had not peeked; a C string whose first character code equals its own length is misread as a Pascal string.", "quantifier": "every byte string up to 255 bytes, every budget", "why_tests_cant": "unbounded strings; the ambiguous inputs are rare and data dependent", "anchors": ["src/bitio/bitio.cpp:write_pascal_string", "src/bitio/bitio.cpp:read_pascal_string"]}
{"id": "C07", "title": "Big-endian conversions are mutually inverse", "statement": "be_to_uint32(uint32_to_be(v)) = v and be_to_uint64(uint64_to_be(v)) = v, and the converse for every 4- and 8-byte array; byte 0 is the most significant.", "quantifier": "all 2^32 and 2^64 values and byte arrays", "why_tests_cant": "2^64 values", "anchors": ["src/endian/endian.cpp"]}
{"id": "C08", "title": "Language code round trip", "statement": "A three letter language code written by mdhd is read back unchanged for every code whose characters lie in 0x60..0x7f; the packed value fits 15 bits.", "quantifier": "all 32^3 codes and all other byte triples (for the failure)", "why_tests_cant": "interaction with the 5-bit packing is only visible over the whole domain", "anchors": ["src/box/mdhd.cpp:encode_language", "src/box/mdhd.cpp:decode_language"]}
{"id": "C09", "title": "FullBox flag algebra", "statement": "getFlags(setFlags(f)) = f mod 2^24; addFlag sets exactly the given bits; checkFlag(g) is true iff some bit of g is set; removeFlag(g) inverts exactly the bits of g: it clears them when they are all set and leaves every other bit unchanged, but a bit of g that was not set becomes set.", "quantifier": "all flag words and masks", "why_tests_cant": "2^48 pairs; also an unset-flag removal is never exercised", "anchors": ["src/box.cpp:FullBox::setFlags", "src/box.cpp:FullBox::removeFlag"]}
{"id": "C10", "title": "Box header round trip", "statement": "BoxHeader::write followed by read_box_header at the same offset returns the same type, offset, size, header size and extend-to-EOF mark, for compact, 64-bit and to-end-of-file headers, and write modifies only the header bytes.", "quantifier": "every type, offset, size below 2^64, every existing file content", "why_tests_cant": "size boundaries at 2^32 need 4 GiB files to test", "anchors": ["src/box_header.cpp:read_box_header", "src/box_header.cpp:BoxHeader::write"]}
{"id": "C11", "title": "Header size is chosen by data size", "statement": "After setOffsetAndDataSize, the header is 8 bytes exactly when 8 + data fits 32 bits and 16 otherwise, size = header + data, and the size field subsequently written is that size.", "quantifier": "all offsets and data sizes below 2^64-16", "why_tests_cant": "boundary needs 4 GiB payloads", "anchors": ["src/box_header.cpp:BoxHeader::setOffsetAndDataSize", "src/box_header.cpp:BoxHeader::getDataSize"]}
{"id": "C12", "title": "Box tree layout", "statement": "After adjustOffsetAndSize every box's size equals header + own data + sum of children sizes, the first child starts right after the box's own data, each next child right where the previous ends, and the result only depends on the tree, not on the headers before the call (idempotent).", "quantifier": "every tree shape, depth, data sizes and start offset", "why_tests_cant": "unbounded trees; recursion re-run when a header grows", "anchors": ["src/box_info.cpp:BoxInfo::adjustOffsetAndSize"]}
{"id": "C13", "title": "Box tree serialization", "statement": "After adjustOffsetAndSize(o), BoxInfo::write puts at offset o exactly the nested encoding header(size,type) ++ data ++ children, of length getSize, and touches no other byte of the file.", "quantifier": "every tree, offset and file content", "why_tests_cant": "unbounded trees; overlap bugs depend on shape", "anchors": ["src/box_info.cpp:BoxInfo::write", "src/box.cpp:Box::write"]}
{"id": "C14", "title": "Declared data size equals written size", "statement": "For every box type and every field value that writeData accepts, the number of bits written equals 8*getDataSize() and equals the returned bit count; so header sizes are never wrong.", "quantifier": "every box type and every field value", "why_tests_cant": "combinations of versions, flags and table lengths are unbounded", "anchors": ["src/box/*.cpp:getDataSize", "src/box/*.cpp:writeData"]}
{"id": "C15", "title": "On-disk layout of every box", "statement": "writeData emits exactly the big-endian field sequence of the file format for that box (field order, widths, version and flag dependence).", "quantifier": "every box type and field value", "why_tests_cant": "unbounded field values", "anchors": ["src/box/*.cpp:writeData"]}
{"id": "C16", "title": "Round trip: fixed-layout boxes", "statement": "readData(writeData(b)) = b, consuming exactly the written bits, for btrt, pasp, fiel, smhd, vmhd, mfhd, mfro, trex, dref, stsd, iods and the empty container boxes; the bits reported equal the bits written, except that iods reports 8*(descriptor length - 7) modulo 2^32 more.", "quantifier": "all field values and following bytes", "why_tests_cant": "2^k field values", "anchors": ["src/box/btrt.cpp", "src/box/pixel_aspect_ratio.cpp", "src/box/fiel.cpp", "src/box/smhd.cpp", "src/box/vmhd.cpp", "src/box/mfhd.cpp", "src/box/mfro.cpp", "src/box/trex.cpp", "src/box/dref.cpp", "src/box/stsd.cpp"]}
{"id": "C17", "title": "Round trip: versioned boxes", "statement": "readData(writeData(b)) = b for mvhd, tkhd, mdhd, mehd, tfdt, elst and sidx in every version, whenever the fields fit the version's field widths.", "quantifier": "all versions and field values", "why_tests_cant": "unbounded values", "anchors": ["src/box/mvhd.cpp", "src/box/tkhd.cpp", "src/box/mdhd.cpp", "src/box/mehd.cpp", "src/box/tfdt.cpp", "src/box/elst.cpp", "src/box/sidx.cpp"]}
{"id": "C18", "title": "When a 64-bit value survives version selection", "statement": "A 64-bit time, duration or offset put in a mvhd/tkhd/mdhd/mehd/tfdt/elst/sidx box reads back unchanged if and only if the box version stores 64 bits or the value fits 32 bits; in version 0 a larger value is silently reduced modulo 2^32.", "quantifier": "all 64-bit values and versions", "why_tests_cant": "2^64 values", "anchors": ["src/box/mvhd.cpp", "src/box/mdhd.cpp", "src/box/tkhd.cpp"]}
{"id": "C19", "title": "Round trip: sample tables", "statement": "readData(writeData(b)) = b for stts, ctts, stsc, stco, co64, stss, stsz, sdtp and sbgp tables of any length below 2^32.", "quantifier": "all tables", "why_tests_cant": "unbounded table lengths", "anchors": ["src/box/stts.cpp", "src/box/ctts.cpp", "src/box/stsc.cpp", "src/box/stco.cpp", "src/box/co64.cpp", "src/box/stss.cpp", "src/box/stsz.cpp", "src/box/sdtp.cpp", "src/box/sbgp.cpp"]}
{"id": "C20", "title": "Round trip: movie fragments", "statement": "readData(writeData(b)) = b for tfhd, trun and tfra with every combination of optional-field flags, versions and length sizes.", "quantifier": "all flag combinations, versions, entries", "why_tests_cant": "2^24 flag words times unbounded entries", "anchors": ["src/box/tfhd.cpp", "src/box/trun.cpp", "src/box/tfra.cpp"]}
{"id": "C21", "title": "Round trip: sample entries", "statement": "readData(writeData(b)) = b for visual and audio sample entries including QuickTime sound extensions.", "quantifier": "all field values, versions and extension lengths", "why_tests_cant": "unbounded extension data", "anchors": ["src/box/sample_entry.cpp"]}
{"id": "C22", "title": "Round trip: codec configuration", "statement": "readData(writeData(b)) = b for avcC, av1C, vpcC and dOps whenever counts fit their fields; avcC with 32 or more parameter sets is corrupted.", "quantifier": "all configurations", "why_tests_cant": "unbounded parameter set lists", "anchors": ["src/box/avc.cpp", "src/box/av1c.cpp", "src/box/vpc.cpp", "src/box/dOps.cpp"]}
{"id": "C23", "title": "Round trip: strings and metadata", "statement": "readData(writeData(b)) = b for hdlr, url, urn, emsg, data, colr, pssh, ftyp and styp with NUL-free strings; a hdlr with padding cannot be read back.", "quantifier": "all strings and payloads", "why_tests_cant": "unbounded strings", "anchors": ["src/box/hdlr.cpp", "src/box/url.cpp", "src/box/urn.cpp", "src/box/emsg.cpp", "src/box/data.cpp", "src/box/colr.cpp", "src/box/pssh.cpp", "src/box/ftyp.cpp", "src/box/styp.cpp"]}
{"id": "C24", "title": "Round trip: esds descriptors", "statement": "readData(writeData(b)) = b for every list of ES / decoder-config / decoder-specific / SL-config descriptors whose lengths are below 2^28, and the bits reported equal the bits consumed.", "quantifier": "all descriptor lists", "why_tests_cant": "unbounded lists", "anchors": ["src/box/esds.cpp"]}
{"id": "C25", "title": "readData reports what it consumed", "statement": "For every payload, valid or not, whenever readData returns, the number of bits it reports is exactly the number of bits it consumed, for every box class except three: avcC may report up to three skipped bytes but never more than the payload; esds reports one byte more than the payload holds when it meets an unknown descriptor tag, otherwise exactly; iods adds (descriptor length - 7)*8 modulo 2^32.", "quantifier": "every box class, every payload, every earlier object state", "why_tests_cant": "ranges over all byte strings, including malformed ones", "anchors": ["src/box/*.cpp:readData", "src/box/esds.cpp:Esds::readData", "src/box/avc.cpp:AVCDecoderConfigurationRecord::readData", "src/box/iods.cpp:Iods::readData", "src/reader/reader.cpp:Reader::readBox"]}
{"id": "C26", "title": "Round trip: sample group descriptions", "statement": "readData(writeData(b)) = b for sgpd with every grouping type, version and entry length mode.", "quantifier": "all entries", "why_tests_cant": "unbounded entry lists", "anchors": ["src/box/sgpd.cpp"]}
{"id": "C27", "title": "Round trip: opaque payloads", "statement": "free, skip, mdat and unknown boxes reproduce their payload byte for byte.", "quantifier": "all payloads", "why_tests_cant": "unbounded payloads", "anchors": ["src/box/free.cpp", "src/box/skip.cpp", "src/box/mdat.cpp", "src/box/unsupported.cpp"]}
{"id": "C28", "title": "SimpleReader terminates", "statement": "SimpleReader::read finishes (with a tree or an exception) on every input file, after visiting at most size/8 boxes.", "quantifier": "all byte strings", "why_tests_cant": "non-termination inputs cannot be enumerated", "anchors": ["src/reader/reader.cpp:SimpleReader::read", "src/reader/reader.cpp:SimpleReader::readBox"]}
{"id": "C29", "title": "SimpleReader rejects impossible sizes", "statement": "A box header whose declared size is smaller than the header or reaches behind the end of the file makes read throw right there; no further header is read.", "quantifier": "all byte strings", "why_tests_cant": "malformed inputs are unbounded", "anchors": ["src/reader/reader.cpp:SimpleReader::readBox", "src/box_header.cpp:read_box_header"]}
{"id": "C30", "title": "Boxes tile the file and stay inside their parents", "statement": "Whenever SimpleReader::read returns normally, the top-level boxes cover the file exactly, the children of every box cover the rest of its byte range without gap or overlap, and every box lies inside its parent; a file with a child that runs past its parent never reads normally.", "quantifier": "all byte strings", "why_tests_cant": "needs adversarial sizes", "anchors": ["src/reader/reader.cpp:SimpleReader::readBox"]}
{"id": "C31", "title": "Reading a written file gives back the tree", "statement": "SimpleReader applied to the bytes written by BoxInfo::write for a tree returns the same tree: same types, nesting, order, offsets, sizes and field values.", "quantifier": "every tree of supported boxes with round-trippable content", "why_tests_cant": "unbounded trees", "anchors": ["src/reader/reader.cpp", "src/box_info.cpp"]}
{"id": "C32", "title": "stts run-length encoding", "statement": "The stts box of a finalized track expands to exactly the list of sample durations, has no zero-count entry and no two adjacent entries with equal delta, and its counts sum to the number of samples.", "quantifier": "every list of durations", "why_tests_cant": "unbounded lists", "anchors": ["src/track/track.cpp:make_stts_entries"]}
{"id": "C33", "title": "stsc run-length encoding", "statement": "Expanding the stsc box over the number of chunks gives exactly the per-chunk sample counts; first_chunk values strictly increase from 1.", "quantifier": "every list of chunks", "why_tests_cant": "unbounded lists", "anchors": ["src/track/track.cpp:make_stsc_entries"]}
{"id": "C34", "title": "Chunk offset box", "statement": "The stco/co64 box of a track lists exactly the chunk offsets in order; co64 is used exactly when some offset does not fit 32 bits. This needs non-decreasing offsets (only the last one is examined); a decreasing list loses bits.", "quantifier": "every list of chunk offsets", "why_tests_cant": "4 GiB files needed", "anchors": ["src/track/track.cpp:make_offset_box"]}
{"id": "C35", "title": "Track bookkeeping", "statement": "After any sequence of stored samples and terminateCurrentChunk calls followed by appendTrakBoxInfo, the track has exactly the chunks the caller delimited: the chunk sample counts sum to the number of sample sizes, which equals the number of durations; no chunk is empty; key sample numbers of a video track are exactly the numbers of the key samples, strictly increasing, between 1 and the number of samples (audio: none). Terminating a chunk after appendTrakBoxInfo lists its samples twice.", "quantifier": "every history of calls, any writer, fewer than 2^32 samples", "why_tests_cant": "unbounded histories", "anchors": ["src/track/track.cpp:Track::addMdatData", "src/track/track.cpp:Track::terminateCurrentChunk", "src/track/track.cpp:Track::finalize"]}
{"id": "C36", "title": "Durations telescope", "statement": "After finalize the durations sum (mod 2^32) to the track duration minus the first timestamp; the i-th duration is the difference between consecutive timestamps.", "quantifier": "every history", "why_tests_cant": "unbounded histories", "anchors": ["src/track/track.cpp:Track::addMdatData", "src/track/track.cpp:Track::finalize"]}
{"id": "C37", "title": "finalize is idempotent", "statement": "Calling finalize again changes nothing; sample tables built twice are equal.", "quantifier": "every history", "why_tests_cant": "unbounded histories", "anchors": ["src/track/track.cpp:Track::finalize"]}
{"id": "C38", "title": "Samples are where the tables say (SimpleWriter)", "statement": "In the finished file, for every track, following stsc, stsz and stco/co64 gives exactly the bytes of the samples the caller added to that track, in order. The caller must keep to one rule: between two addData calls on a track without terminateCurrentChunk on it, no other track gets data (otherwise the tables are wrong).", "quantifier": "every program: any number of tracks of any codec, any calls in any order within the rule, any sample contents and sizes", "why_tests_cant": "unbounded interleavings", "anchors": ["src/writer/simple_writer.cpp", "src/track/track.cpp"]}
{"id": "C39", "title": "Samples are where the tables say (FaststartWriter)", "statement": "Same as C38 for FaststartWriter, whose moov box precedes mdat and whose chunk offsets are shifted by the final header sizes.", "quantifier": "every program within the same rule and every resulting moov size", "why_tests_cant": "unbounded interleavings; 32/64-bit switch needs huge files", "anchors": ["src/writer/faststart_writer.cpp", "src/track/track.cpp:Track::resetChunkOffsets"]}
{"id": "C40", "title": "SimpleWriter file layout", "statement": "The finished file is ftyp, (free +) mdat header, sample data in the order added, moov, with no gap or overlap; mdat's declared size covers exactly the sample data in both the 32- and 64-bit header form.", "quantifier": "every history", "why_tests_cant": "unbounded histories; 4 GiB boundary", "anchors": ["src/writer/simple_writer.cpp"]}
{"id": "C41", "title": "FaststartWriter file layout", "statement": "The finished file is ftyp, moov, mdat header, sample data, with no gap or overlap.", "quantifier": "every history", "why_tests_cant": "unbounded histories", "anchors": ["src/writer/faststart_writer.cpp"]}
{"id": "C42", "title": "Faststart offset fixpoint terminates", "statement": "The offset adjustment loop of appendTrakAndUdtaBoxInfo terminates and never reports a shrinking moov; on exit every chunk offset in the tables is exactly the offset in the intermediate file + ftyp size + moov size + mdat header size.", "quantifier": "every set of tracks, whatever moov size and stco/co64 switches result", "why_tests_cant": "the moov size depends on the offsets through the 32/64-bit switch", "anchors": ["src/writer/faststart_writer.cpp:FaststartWriter::appendTrakAndUdtaBoxInfo"]}
{"id": "C43", "title": "Intermediate file copy", "statement": "copyMdatData appends exactly the bytes collected in the intermediate file, whatever their length.", "quantifier": "every length", "why_tests_cant": "boundaries at multiples of 1 MiB", "anchors": ["src/writer/faststart_writer.cpp:FaststartWriter::copyMdatData"]}
{"id": "C44", "title": "Sample data is never overwritten", "statement": "Once addMdatData has returned, the bytes of that sample stay at the same file offset through every later operation including writing headers and moov (SimpleWriter), at any crash point.", "quantifier": "every history and crash point", "why_tests_cant": "unbounded histories and crash points", "anchors": ["src/writer/simple_writer.cpp"]}
{"id": "C45", "title": "Track ids", "statement": "Track ids handed out by a writer are non-zero, pairwise distinct and below next_track_ID (up to 2^32-1 tracks); a track with id 0 is refused.", "quantifier": "every history", "why_tests_cant": "unbounded", "anchors": ["src/writer/writer.cpp:Writer::getAndUpdateNextTrackID", "src/track/track.cpp"]}
{"id": "C46", "title": "H.264 NAL segmentation", "statement": "Splitting an Annex-B buffer built by joining NAL units with 3- or 4-byte start codes returns exactly those NAL units in order (for NAL units that contain no start code, do not begin with zero and whose last unit is long enough for the scanner).", "quantifier": "all lists of NAL units and start code choices", "why_tests_cant": "unbounded buffers", "anchors": ["src/track/h264.cpp:find_next_nal_unit", "src/track/h264.cpp:H264Track::addData"]}
{"id": "C47", "title": "H.264 scanner is safe and makes progress", "statement": "On every buffer the scanner terminates, reports positions inside the buffer in increasing order and never reads outside it.", "quantifier": "all byte strings", "why_tests_cant": "all inputs", "anchors": ["src/track/h264.cpp:find_next_nal_unit"]}
{"id": "C48", "title": "H.264 sample framing", "statement": "Every VCL NAL unit is stored as one sample made of its 4-byte big-endian length and its bytes; SPS/PPS go only to avcC; other types throw.", "quantifier": "all NAL lists", "why_tests_cant": "unbounded", "anchors": ["src/track/h264.cpp:H264Track::addData"]}
{"id": "C49", "title": "Box registry lookup", "statement": "getBoxInstance returns the last registered definition for the type and an opaque box otherwise; isSupportedVersion accepts exactly the listed versions, or all when none are listed. The registrations the library itself makes are exactly the documented ones: of the 2^32 types, each of the 120 known ones is answered with its class and its versions, every other one is unsupported.", "quantifier": "every sequence of registrations and queries; for the library's own registrations every type and version", "why_tests_cant": "unbounded histories", "anchors": ["src/box_map.cpp", "src/box_types.cpp"]}
{"id": "C50", "title": "Box type matching and text form", "statement": "matchWith is reflexive and symmetric, any matches everything, string construction accepts exactly 4-byte strings; toString is injective on printable types.", "quantifier": "all 2^32 types", "why_tests_cant": "2^64 pairs", "anchors": ["src/box_type.cpp"]}
{"id": "C51", "title": "Times: epochs and calendar", "statement": "Conversion between the 1970 and 1904 epochs is a bijection modulo 2^64. The text of a stored time (seconds since 1904-01-01) is, for every time up to 2106-02-07T06:28:15Z, the one ISO 8601 date of the proleptic Gregorian calendar that lies that many seconds after the beginning of 1904, different times having different texts and every date of that range being reached; for later times it is 0000-00-00T00:00:00Z up to 2^63+2082844800, beyond which it is a date before 1970 again or, where the year leaves the range of the C library, undefined behaviour.", "quantifier": "all 2^64 times", "why_tests_cant": "2^64 values", "anchors": ["src/time/time.cpp", "src/box/mvhd.cpp: toStringOnlyData"]}
{"id": "C52", "title": "Box path and context", "statement": "A box's path is its parent's path followed by its type; an audio sample entry is treated as raw QuickTime data exactly when its parent is 'wave'.", "quantifier": "all trees", "why_tests_cant": "unbounded depth", "anchors": ["src/box_info.cpp:BoxInfo::BoxInfo"]}
{"id": "C53", "title": "What a rejected writeData leaves behind", "statement": "writeData throws only for tfra (length sizes over 3 with entries), esds (URL longer than 255 bytes) and avcC (high-profile fields on a profile without them); whenever it throws, part of the box has already been output: for avcC exactly the record without the high-profile fields, for esds exactly everything before the first over-long URL.", "quantifier": "all field values", "why_tests_cant": "requires exploring failing values", "anchors": ["src/box/avc.cpp", "src/box/esds.cpp"]}
{"id": "C54", "title": "Sample count of a constant-size stsz", "statement": "stsz reads back unchanged if and only if sample_size is 0 or the table is empty: with a constant sample size the per-sample table, and with it the sample count, is lost.", "quantifier": "all stsz boxes", "why_tests_cant": "values", "anchors": ["src/box/stsz.cpp"]}
{"id": "C55", "title": "No undefined behaviour while reading", "statement": "SimpleReader::read on an arbitrary file never executes undefined behaviour when the stream is a string stream, nor on a file stream when the file contains no iods, esds or avcC box; with those boxes a file stream can be driven to dereference an end-of-stream iterator.", "quantifier": "every byte sequence as file content, both stream kinds, every box map", "why_tests_cant": "the unsafe state is reached only by files whose declared lengths are inconsistent in a particular way; tests sample files", "anchors": ["src/reader/reader.cpp: SimpleReader::readBox", "src/box_header.cpp: read_box_header", "src/box/iods.cpp: Iods::readData"]}
{"id": "C56", "title": "Byte-wise access and seeking on bit streams", "statement": "On a bit stream writer, for every sequence of writeBits and write calls by a caller that carries on after an exception: write is accepted exactly when the bits accepted so far form whole bytes, a refused call changes nothing, and the stream receives exactly the complete bytes of the accepted bits in order. On a bit stream reader, for every sequence of readBits, read and seek calls: read and relative seeks are refused exactly in the middle of a byte and change nothing, every other call answers with exactly the bits or bytes at the current position, and the stream fails exactly when fewer are left or the seek leaves the file.", "quantifier": "every sequence of calls of any length, every file content and start position", "why_tests_cant": "the interleavings of bit-wise, byte-wise and seek calls are unbounded; the refused cases depend on the bit position reached", "anchors": ["src/bitio/writer.cpp: Writer::write, writeBits", "src/bitio/reader.cpp: Reader::read, readBits, seek"]}
{"id": "C57", "title": "The sample tables of both writers say what was added", "statement": "For every program of track constructions, addData calls, chunk terminations and id requests, the file of SimpleWriter and the file of FaststartWriter contain one trak per accepted track, in order, and in each trak: the stts box gives every sample the time to the next sample of its track, and the last one the time to the end of the track; the stsz box lists the sizes of the samples in order; for video the stss box lists exactly the 1-based numbers of the samples added as key samples, and for audio there is no stss box, so that every sample is a sync sample. The stsc box and exactly one of stco and co64 are there, all with flags 0. This holds without any discipline in the order of calls on different tracks.", "quantifier": "every program (any number of tracks of any codec, any interleaving, any timestamps, any sample sizes) whose file stays below 2^64 bytes (Simple) or 2^63 (Faststart) and whose tracks have fewer than 2^32 samples", "why_tests_cant": "programs, interleavings, timestamps and sample counts are unbounded", "anchors": ["src/track/track.cpp: Track::addMdatData, makeSttsBoxInfo, makeStszBoxInfo, makeStssBoxInfo, finalize", "src/writer/simple_writer.cpp", "src/writer/faststart_writer.cpp"]}
{"id": "C58", "title": "Track and movie parameters reach the file unchanged", "statement": "In the file of either writer, for every program: mvhd has the time scale, duration and creation time of the writer; and for every track, in order, tkhd has its id, duration, presentation size and volume; elst has exactly one edit that covers the duration from the media time asked for (or last set); mdhd has its time scale (48000 for Opus), duration and creation time; hdlr and the media header (vmhd or smhd) agree with the kind of the codec; the data reference is to the file itself; stsd has exactly one sample entry, of the codec's type and with the size, bit rates, pre-skip, profile, and configuration asked for (for H.264, the parameter sets of the byte streams added); Opus and AAC have one roll group with the roll distance asked for and covering all samples, and the others have none. All other members of these boxes (versions, flags, reserved and pre-defined fields, lengths of descriptors) have the values the format prescribes.", "quantifier": "every program (any number of tracks, any codec with any parameters, any interleaving of calls), both writers", "why_tests_cant": "parameters, track counts and call interleavings are unbounded, and a swapped or dropped parameter shows only for particular combinations of codec and values", "anchors": ["src/track/*.cpp: constructors, appendTrakBoxInfo, makeStsdBoxInfo", "src/writer/writer.cpp", "src/writer/simple_writer.cpp", "src/writer/faststart_writer.cpp"]}
{"id": "C59", "title": "Durations given as float seconds end up right in the movie", "statement": "Writers and tracks take durations as float seconds and store them in integer units of a time scale (mvhd, tkhd, elst, mdhd). The stored number is the IEEE 754 product of the time scale (rounded to float) and the duration, rounded to float and then towards zero: whole numbers of units are exact while they and the time scale fit 24 bits; otherwise the number is off by less than one unit plus one part in 2^22; it never decreases when the duration or the time scale grows; the conversion is defined for every non-negative finite duration whose product stays below 2^64 and is undefined behaviour for NaN, infinities, products from 2^64 on and products of -1 and below. In the finished file mvhd, tkhd, elst and mdhd of every program state these durations, and tkhd and elst agree.", "quantifier": "every time scale (32 bits), every float bit pattern, every program of calls, both writers", "why_tests_cant": "2^64 pairs of time scale and duration, and rounding errors show up only at particular values", "anchors": ["src/track/track.cpp: Track::getDurationInTimescale, Track::getDurationInMvhdTimescale", "src/writer/simple_writer.cpp: SimpleWriter::SimpleWriter", "src/writer/faststart_writer.cpp: FaststartWriter::recreateMoovBoxInfo"]}
{"id": "C60", "title": "Reading a finished file gives back the movie", "statement": "Whatever a program does with SimpleWriter or FaststartWriter and its tracks, the finished file is read by SimpleReader without an exception, and what it returns is the movie that was asked for: the boxes ftyp, (free,) mdat, moov (or ftyp, moov, mdat), ftyp as given, mdat with the concatenated samples, and a moov that consists of exactly the boxes of C68 and gives, for every track in order, the parameters, the codec configuration and the sample tables asked for (times keep their low 32 bits because the writers use version-0 boxes); and for a program that keeps to the rule for callers, the samples found through the tables that were read are, track by track, byte for byte, the samples added.", "quantifier": "every program of calls (any number of tracks of any codec, any interleaving, any sample data) within the size and count limits of the format, both writers, every content of the members a box object leaves uninitialised, file streams and string streams", "why_tests_cant": "the set of programs is infinite and the claim relates the whole writing side and the whole reading side", "anchors": ["src/writer/simple_writer.cpp", "src/writer/faststart_writer.cpp", "src/track/*.cpp", "src/reader/reader.cpp: SimpleReader::read, readBox", "src/box_map.cpp"]}
{"id": "C61", "title": "What a reader gets back, for every class and every nesting", "statement": "A file made of boxes of any registered classes, and of boxes of types that are not registered (which become opaque 'unsu' boxes with all their bytes and their own header), nested in any way, whose fields fit the widths and counts of their classes, is read by SimpleReader as exactly the same forest: same types, order, nesting and paths, offsets and sizes where the boxes lie, and every field as written, except exactly the listed losses: version-0 times keep 32 bits, the table of a constant-size stsz, fields switched off by flags or version, the meta box's version and flags. In particular a tree laid out with adjustOffsetAndSize(0), written with BoxInfo::write to an empty file and read, comes back that way.", "quantifier": "every forest of every shape, size and depth below 2^63 bytes over all 49 box classes, every field value in range, every content of the members a box leaves uninitialised", "why_tests_cant": "forests, nestings and field values are unbounded; tests round-trip single boxes with single values", "anchors": ["src/reader/reader.cpp: SimpleReader::read, readBox", "src/box_info.cpp: BoxInfo::write, adjustOffsetAndSize", "src/box/*.cpp: writeData, readData", "src/box_map.cpp"]}
{"id": "C62", "title": "Reading loses nothing: a box that was read writes back the bits that were read", "statement": "For every payload whatsoever, not only one this library wrote: whatever readData of any class returns, writeData accepts and writes as many bytes as getDataSize says; and what it writes are exactly the bits that readData consumed, for every class except those with several encodings of one content, where exactly this happens: a url, urn, emsg or (with pre_defined 0) hdlr whose strings are terminated, and an iods whose length field takes four bytes, are also written back bit for bit - which is the case when the size is the same -, a url without terminator gets one; stsz with a common sample size loses the sample count; meta loses version and flags. (Not covered: esds with lengths in other than four bytes, hdlr with a counted string, audio sample entries below wave.)", "quantifier": "every box class, every payload of every length, every content of the members a box leaves uninitialised", "why_tests_cant": "the payloads come from other programs and are unbounded; a test round-trips objects the library itself can make, in the direction object -> bytes -> object", "anchors": ["src/box/*.cpp: readData, writeData, getDataSize", "include/shiguredo/mp4/bitio/bitio.hpp: read_uint, read_int, read_uvarint", "src/bitio/bitio.cpp: read_string", "src/box/mdhd.cpp: decode_language, encode_language"]}
{"id": "C63", "title": "Exactly which payloads readData accepts", "statement": "For every payload, of any origin: readData of every class except hdlr, ftyp/styp and sgpd with alst entries returns normally if the payload holds at least as many bytes as its own version, flags, entry counts, lengths, descriptors and string terminators call for - then exactly those are consumed and the rest of the payload is left unread - and otherwise fails with the end-of-stream exception, never in another way. ftyp/styp accept exactly the payloads of 8 bytes plus a multiple of 4. hdlr accepts exactly the payloads whose name reaches the end of the payload: a byte after the name's terminator makes it fail with end-of-stream. sgpd with alst entries is accepted exactly if all entries are there and the length of each is that of its sample offsets and a whole number of pairs; the first entry for which it is not is refused with its own exception, provided its sample offsets are there.", "quantifier": "every box class, every type and every position below wave, every payload of every length, every content of the members a box leaves uninitialised", "why_tests_cant": "the payload is arbitrary: how many bytes are needed depends on counts and strings of unbounded size found inside it", "anchors": ["src/box/*.cpp: readData", "src/bitio/bitio.cpp: read_string, read_uvarint", "src/box/ftyp.cpp: Ftyp::readData", "src/box/hdlr.cpp: Hdlr::readData", "src/box/audio_sample_entry.cpp: readData", "src/box/esds.cpp: readData", "src/box/sgpd.cpp: AlternativeStartupEntry::readData"]}
{"id": "C64", "title": "Structure of the dump", "statement": "SimpleReader::read prints nothing on a file it rejects. On a file it reads it prints exactly one line for every box header it read, in file order with parents before their children, each indented by two spaces per level and showing type, offset and size as they stand in the file, followed by the fields of the box (C66), and nothing else.", "quantifier": "every file content, every box map, file and string streams", "why_tests_cant": "arbitrary files, unbounded nesting and number of boxes", "anchors": ["src/reader/reader.cpp: SimpleReader::read", "src/box_info.cpp: BoxInfo::toString", "src/box.cpp: Box::toString", "src/box_header.cpp: BoxHeader::toString"]}
{"id": "C65", "title": "The dump can be read back", "statement": "If no text shown in quotes contains a quote or a line break, the output of read determines the boxes of the file: their number, nesting, types, offsets, sizes and all fields shown. Without the condition it does not: texts from the file are printed unescaped, and a box can imitate the lines of other boxes.", "quantifier": "every pair of files with equal dumps; a concrete pair of files for the second part", "why_tests_cant": "pairs of arbitrary files", "anchors": ["src/reader/reader.cpp: SimpleReader::read", "src/box_type.cpp: BoxType::toString", "src/box/url.cpp: toStringOnlyData"]}
{"id": "C66", "title": "Text of a box", "statement": "The text of a box shows the members listed for its class, each under its label, in order: integers in decimal or hexadecimal without leading zeros, fixed-point numbers with sign and rounded to the nearest multiple of 10^-4 (10^-2 for balance) with ties to even, truth values, texts in quotes, tables element by element. If no quoted text contains a quote, the text determines all fields shown; the sample tables and the bytes of media data, free space and unsupported boxes are shown completely, so that the text determines the box.", "quantifier": "every box class, every type, all member values, tables of every length", "why_tests_cant": "all member values", "anchors": ["src/box/*.cpp: toStringOnlyData, toString of entries", "src/box.cpp: FullBox::getVersionAndFlagsString"]}
{"id": "C67", "title": "Undefined behaviour while printing", "statement": "When a file has been read, printing it is undefined exactly if a movie, track or media header in it, at any depth, has a creation or modification time whose year does not fit into the calendar of the C library (possible only in version 1: 2^63+2082844800 or more seconds): gmtime_r returns a null pointer that is dereferenced. All other files are printed completely; on string streams nothing else in read is undefined. Files with such times exist.", "quantifier": "every file content below 2^63 bytes, every box map", "why_tests_cant": "arbitrary files; no test has such a time", "anchors": ["src/time/time.cpp: format_epoch_19040101", "src/reader/reader.cpp: SimpleReader::read", "src/box/mvhd.cpp, src/box/tkhd.cpp, src/box/mdhd.cpp: toStringOnlyData"]}
{"id": "C68", "title": "The movie box has exactly the boxes the format asks for", "statement": "In the file of either writer, for every program, moov consists of exactly mvhd, one trak per accepted track in order, and udta; every trak consists of exactly tkhd, edts with elst, and mdia with mdhd, hdlr and minf, which has the media header of the codec's kind, dinf with dref and url, and stbl with stsd (and its one sample entry with the codec's configuration boxes), stts, stss for video only, stsc, stsz, stco or co64, and for Opus and AAC sgpd and sbgp; in this nesting and order, nothing missing, nothing twice and nothing else.", "quantifier": "every program (any number of tracks of any codec with any parameters, any interleaving of calls), both writers", "why_tests_cant": "programs are unbounded; a box that is missing or doubled only for some codec, option or history escapes examples", "anchors": ["src/track/*.cpp: appendTrakBoxInfo, makeStsdBoxInfo, makeStblBoxInfo", "src/writer/writer.cpp: appendUdtaBoxInfo", "src/writer/simple_writer.cpp", "src/writer/faststart_writer.cpp"]}
{"id": "C69", "title": "Which failures of the output device the writers report", "statement": "When the output stream refuses bytes or seeks: (a) if writing the content of a box returns, all of it is stored. (b) The header of a box can be lost without notice: BoxHeader::write returns normally and the stream stays good() whatever bytes are refused, and the same holds for the sample data given to a SimpleWriter. (c) Still, on a device that keeps refusing behind a refused byte (a full disk, a device that breaks for good) a program with SimpleWriter that ends without an exception has written the complete file; on a disk with room for n bytes it ends without an exception exactly when the file has at most n bytes. (d) On a device that recovers before the program finishes this is false: the program ends without an exception, the mdat header announces all samples, and in their place is only what the device stored, the rest zero. (e) FaststartWriter: on such a device a program that ends without an exception has a complete ftyp and moov, but the file may be cut off behind them; on a disk with room for n bytes it ends without an exception as soon as ftyp and moov fit, and the disk then has the first n bytes of the file. (f) When the intermediate file of FaststartWriter cannot be read, copyMdatData does not end.", "quantifier": "every device (any decision about each byte and seek, depending on time and position), every program, every disk size", "why_tests_cant": "a test injects one failure at one point; the claim ranges over all failure histories and all programs, and (f) is about an infinite run", "anchors": ["src/box_header.cpp: BoxHeader::write", "src/bitio/writer.cpp: Writer::writeBit, writeOctets", "src/writer/simple_writer.cpp: writeFtypBox, addMdatData, writeFreeBoxAndMdatHeader, writeMoovBox", "src/writer/faststart_writer.cpp: writeMoovBox, writeMdatHeader, copyMdatData"]}
{"id": "C70", "title": "A box built from parameters contains those parameters", "statement": "For every box class, a box built from a parameter structure (or by the default constructor, where the class has one) has the type of the class, and writing its content produces exactly the fields the format has for the class, in order, each holding the value of the corresponding parameter (truncated only where the field is narrower), and the size it reports is the size of that. The constructor throws exactly for an audio sample entry whose QuickTime data has a length that does not fit the sound description version or the QuickTime flag. Writing the content throws exactly for tfra with entries and a length-size above 3, an ES descriptor with a URL above 255 bytes, and high profile fields on a profile that has none. Parameters left out have the documented default values.", "quantifier": "every box class and every value of every parameter", "why_tests_cant": "each class has tests of one or two parameter sets; a swapped or dropped parameter is seen only when the values differ, and the widths, flags and versions that decide which fields exist make too many combinations to enumerate", "anchors": ["include/shiguredo/mp4/box/*.hpp", "src/box/*.cpp (constructors)", "include/shiguredo/mp4/box/sample_entry.hpp AudioSampleEntry", "include/shiguredo/mp4/box/esds.hpp"]}
{"id": "C71", "title": "What a program that is killed while writing leaves behind", "statement": "A program with SimpleWriter stores the bytes of ftyp, then the sample bytes at their final position (16 bytes behind ftyp), then the 16 bytes of free and mdat header in between, then moov. Whenever it is stopped, after any number of bytes: every sample byte stored before is in the file at the position it has in the finished file; a file stopped inside ftyp or inside moov is rejected by the reader; a file stopped while samples are added is read as ftyp followed by one unknown box that reaches to the end of the file and contains the samples stored so far; stopped after the last byte it is the finished file. A program with FaststartWriter stores its bytes strictly from the first to the last: what it leaves behind is a beginning of the finished file, and the reader rejects it unless it ends exactly behind ftyp or behind moov.", "quantifier": "every sequence of track creations and sample calls, every ftyp, every number of bytes stored before the program is stopped (every crash point)", "why_tests_cant": "every stored byte of every program is a crash point; tests would have to stop the process at each of them", "anchors": ["src/writer/simple_writer.cpp SimpleWriter::writeFtypBox, addMdatData, writeFreeBoxAndMdatHeader, writeMoovBox", "src/writer/faststart_writer.cpp FaststartWriter::writeMoovBox, writeMdatHeader, copyMdatData", "src/reader/reader.cpp Reader::read"]}
{"id": "C72", "title": "A file that was cut off inside a box is rejected", "statement": "If a file is made of boxes (each with a correct 32-bit or 64-bit size field in front of any content whatsoever) and is cut off anywhere inside one of them, Reader::read throws; it never returns a list of boxes. In particular this holds for every file that the library wrote from box trees.", "quantifier": "all lists of boxes with arbitrary types and contents, all cut positions that are not between two top-level boxes, total size below 2^63", "why_tests_cant": "there are as many cut positions as bytes, in every file, and the content of the cut box is arbitrary, also nested boxes with sizes that point behind the cut", "anchors": ["src/reader/reader.cpp Reader::read, Reader::readBox", "src/box_header.cpp read_box_header"]}
{"id": "C73", "title": "A last box without a size extends to the end of the file", "statement": "If a file ends with a box whose size field is 0 and whose type has no registered parser or is one whose content is kept as opaque bytes (such as mdat or free), reading it returns the boxes in front of it followed by that box with all remaining bytes of the file as its content (for an unregistered type as an unsupported box).", "quantifier": "all lists of boxes in front (as in C61), all types that are unregistered or registered as opaque, all contents, file size below 2^63", "why_tests_cant": "the content and the boxes in front are arbitrary", "anchors": ["src/box_header.cpp read_box_header", "src/reader/reader.cpp Reader::readBox", "src/box/mdat.cpp", "src/box/unsupported.cpp"]}
{"id": "C74", "title": "The reader frees every object exactly once", "statement": "For every file, SimpleReader::read followed by the destructor of the reader never accesses an object that was not created or was already deleted, and deletes no object twice. When read returns, the destructor leaves none of the headers, boxes and box infos that were created. When read throws, everything except at most one object is deleted by the destructor; that one is the header of a box that claims to be larger than the file, and it is left only when the exception is the one that says so. Seen through the pointers, the boxes printed and the exception are those the other claims are about.", "quantifier": "all byte sequences below 2^63 bytes, both kinds of stream, all registrations of box classes, all contents of uninitialised members", "why_tests_cant": "the objects created and the point where reading fails depend on the file; a sanitizer sees only the files it is run on", "anchors": ["src/reader/reader.cpp SimpleReader::~SimpleReader, SimpleReader::read, SimpleReader::readBox", "src/box_info.cpp BoxInfo::BoxInfo, BoxInfo::~BoxInfo, BoxInfo::addLeaf", "src/box.cpp Box::~Box, Box::setHeader", "src/box_map.cpp BoxMap::getBoxInstance", "src/box_header.cpp read_box_header"]}
{"id": "C75", "title": "The writers free every object exactly once", "statement": "For any calls on a new SimpleWriter or FaststartWriter, on any device, until the first exception, followed by the destructor of the writer: no object is accessed that was not created or was already deleted, and none is deleted twice. The outcome is the one the other claims describe (same exception, or same stream and same moov tree seen through the pointers). The destructor leaves no header, box or box info behind, except when the exception came from writeFtypBox or (SimpleWriter) writeFreeBoxAndMdatHeader: then at most the three objects of the ftyp or free box being written are never deleted. A tree of boxes a program builds itself is likewise measured, written and deleted by one delete of its top.", "quantifier": "all call sequences, tracks, devices (including ones that fail at any access), writer parameters; all trees of boxes of any depth", "why_tests_cant": "the set of objects depends on the tracks and the number of rounds of the faststart loop, and leaks after failures depend on the access at which a device fails", "anchors": ["src/writer/writer.cpp Writer::~Writer", "src/writer/simple_writer.cpp", "src/writer/faststart_writer.cpp FaststartWriter::recreateMoovBoxInfo, FaststartWriter::appendTrakAndUdtaBoxInfo", "src/box_info.cpp", "src/box.cpp Box::makeHeader, Box::~Box"]}
{"id": "C76", "title": "A reader reads its file once", "statement": "On a file that is not empty, SimpleReader::read returns at most once per reader: after it has returned, and wherever else an earlier call has left the stream, a further call throws (or, behind the end of a file stream, is undefined behaviour) and reads no header once the file was read; with the stream at its end the exception is that of read_box_header about missing data. However often read is called and its exceptions are caught, the destructor deletes each object once and leaves at most one header per call.", "quantifier": "all non-empty byte sequences below 2^63 bytes, all numbers of calls, all positions an earlier call leaves the stream at", "why_tests_cant": "ranges over all files and all histories of calls on one reader", "anchors": ["src/reader/reader.cpp SimpleReader::read, SimpleReader::readBox, SimpleReader::~SimpleReader", "src/box_header.cpp read_box_header"]}
{"id": "C77", "title": "Every byte of mdat belongs to exactly one sample", "statement": "For every program that keeps to the rule for callers, in the file either writer produces the tables of each track (stsc, stsz, stco/co64) name as places of its samples exactly the places where the data was stored, in the order it was added; every byte of the content of mdat lies in exactly one sample of one track, and no sample has a byte outside it: no byte is lost, shared or unreachable.", "quantifier": "all programs of calls keeping to the rule (all numbers of tracks, samples, chunks and interleavings, all data), file names and brands below the stated sizes", "why_tests_cant": "ranges over all programs, all interleavings of tracks and all data", "anchors": ["src/track/track.cpp Track::addMdatData, Track::terminateCurrentChunk, Track::makeStscBoxInfo, Track::makeStcoBoxInfo, Track::makeStszBoxInfo", "src/writer/simple_writer.cpp SimpleWriter::addMdatData, SimpleWriter::tell", "src/writer/faststart_writer.cpp FaststartWriter::addMdatData, FaststartWriter::copyMdatData"]}
{"id": "C78", "title": "What an accepted file makes the reader hold", "statement": "For every file SimpleReader::read accepts, 8 for each box plus the number of elements in all vectors and strings of all box objects (table entries, array elements, characters, parameter sets, descriptors) is at most the number of bytes of the file, except for the entries of trun boxes whose flags give their entries no field; and the exception is real: for every n below 2^32 there is a 16-byte file that is accepted and makes the reader hold n entries. The same per class: the object readData returns holds at most one element per byte of the payload, and per byte reported as read.", "quantifier": "all files below 2^63 bytes, all payloads of all classes, all values of uninitialised members, all entry counts", "why_tests_cant": "ranges over all files and all count fields; a test can only try some counts", "anchors": ["src/reader/reader.cpp SimpleReader::readBox", "src/box/trun.cpp Trun::readData, TrunEntry::readData", "src/box/stts.cpp Stts::readData", "src/box/avc.cpp AVCDecoderConfiguration::readData", "src/box/sgpd.cpp Sgpd::readData", "src/box/esds.cpp Esds::readData", "include/shiguredo/mp4/bitio/bitio.hpp read_vector_uint"]}
{"id": "C79", "title": "FaststartWriter's intermediate file under failures of the C library and the file system", "statement": "For every pattern of failures of mkstemp, fdopen, fwrite, ftell, fseek, fread, fclose and remove and every sequence of calls on a FaststartWriter whose exceptions are caught: the constructor throws iff mkstemp or fdopen fails and leaves the file behind in the second case; the file exists until a copyMdatData or deleteIntermediateFile returns, also after the object is destroyed; it contains what the addMdatData calls wrote, in order, completely for those that returned and as many bytes as the message says for those that threw, and the bytes of a returned call stay at the place tellCurrentMdatOffset reported before it; the count used for the mdat header is that of the returned calls only, so after a failed call the file is longer than the header will say; copyMdatData returns only after all of the file was copied and the file is closed and gone, and otherwise leaves the file as it was; calls that use the file are undefined after a copyMdatData that got to closing it, addMdatData possibly after one that found the output broken, and nothing else is; copyMdatData ends when reads stop failing.", "quantifier": "all failure patterns of the C library and file system, all output devices, all sequences of calls with all data, all outcomes", "why_tests_cant": "failures of fclose, remove, ftell at arbitrary points cannot be produced by tests, and the claims are about all histories of calls", "anchors": ["src/writer/faststart_writer.cpp FaststartWriter::FaststartWriter, addMdatData, tellCurrentMdatOffset, copyMdatData, deleteIntermediateFile", "include/shiguredo/mp4/writer/faststart_writer.hpp FaststartWriter", "src/writer/writer.cpp Writer::~Writer"]}
{"id": "C80", "title": "SimpleReader on a stream that changes or cannot be read everywhere", "statement": "SimpleReader takes the size of the stream in its constructor. If the stream has the same content when read is called but some bytes cannot be read, read does what it would do with all bytes readable or its behaviour is undefined; a file it would accept is accepted iff every one of its bytes is readable, and is undefined behaviour (not an exception) otherwise. If the stream has become shorter since the constructor, read ends, and never returns normally. If bytes were appended to an acceptable stream, read gives the same boxes as before, unless some box has size 0 (extends to the end of the file): then it throws.", "quantifier": "all stream contents below 2^63 bytes, all sets of unreadable positions, all sizes found by the constructor, all values of uninitialised members", "why_tests_cant": "ranges over all contents, all defective positions and all lengths at the two times; I/O errors and concurrent truncation cannot be produced in unit tests", "anchors": ["src/reader/reader.cpp SimpleReader::SimpleReader, SimpleReader::read, SimpleReader::readBox", "src/box_header.cpp read_box_header"]}
{"id": "C81", "title": "Public calls of the writers in any order", "statement": "SimpleWriter: whatever public calls were made before, a call has undefined behaviour iff it is writeFreeBoxAndMdatHeader or writeMoovBox and writeFtypBox was not called before (they use the never initialised ftyp size); every other call returns, none throws. FaststartWriter (exceptions caught): a call has undefined behaviour iff it is writeMdatHeader, appendTrakAndUdtaBoxInfo or writeMoovBox before writeFtypBox, or writeMoovBox when the boxes of moov were not laid out by appendTrakAndUdtaBoxInfo or a box was added by appendUdtaBoxInfo afterwards, or addMdatData, tellCurrentMdatOffset or copyMdatData after copyMdatData. It throws only in appendTrakAndUdtaBoxInfo ('shrink moov size') or when the intermediate file is removed a second time; the loop of appendTrakAndUdtaBoxInfo always ends.", "quantifier": "all sequences of public calls with all arguments, on a writer made by its constructor", "why_tests_cant": "the space of call sequences is infinite and reads of uninitialised members often go unnoticed in a test", "anchors": ["src/writer/simple_writer.cpp all member functions", "src/writer/faststart_writer.cpp all member functions", "src/writer/writer.cpp Writer::appendUdtaBoxInfo"]}
{"id": "C82", "title": "appendTrakAndUdtaBoxInfo called more than once", "statement": "FaststartWriter: appendTrakAndUdtaBoxInfo, when it returns, leaves exactly one trak box per given track, whatever was appended before. But calling it n+1 times with the same tracks moves all chunk offsets too far: every offset in the file is too large by one and the same number, which is 0 if n = 0 and at least n times the size of ftyp and the mdat header otherwise. SimpleWriter: n calls give n copies of the track boxes and of udta in moov.", "quantifier": "all programs making tracks and adding samples, all n, as long as all sizes stay below 2^63", "why_tests_cant": "ranges over all programs and numbers of calls; the result is a file whose boxes are well-formed and whose offsets are wrong", "anchors": ["src/writer/faststart_writer.cpp FaststartWriter::appendTrakAndUdtaBoxInfo", "src/writer/simple_writer.cpp SimpleWriter::appendTrakAndUdtaBoxInfo"]}
{"id": "C83", "title": "Memory requested while reading, and an allocator that refuses", "statement": "SimpleReader::read with an allocator that may refuse any vector::resize: it either behaves exactly as with unlimited memory, or ends with std::bad_alloc at the first refused request, having read a prefix of the headers it would have read; the requests up to then do not depend on the allocator. No request is for more than 2^32-1 elements or 8 times the bytes of the file. A file that is accepted requests in total no more elements than the file has bytes plus the entries of trun boxes without fields, so an allocator with that much memory suffices. For a file that is rejected there is no such bound: for each n from 1 to 2^32-1 there is a file of 16 bytes that requests n elements and then fails with an end-of-file error.", "quantifier": "all files, all allocators (any function of the requests made so far)", "why_tests_cant": "ranges over all files and every point at which memory may run out", "anchors": ["src/reader/reader.cpp SimpleReader::readBox", "include/shiguredo/mp4/bitio/bitio.hpp read_vector_uint", "src/box/*.cpp readData"]}
{"id": "C84", "title": "Positioning a stream at the boxes of a file", "statement": "For every file SimpleReader accepts and every box in it at any depth: seekToData and seekToEnd of its header and of the box, from any position, on file and string streams, succeed and put the stream at offset + header size and at offset + size, inside the file, getDataSize() bytes apart. A program that goes through the file with read_box_header and seekToEnd visits exactly the headers of the top-level boxes, in order, and ends at the end of the file. On any other file it ends too, and not with undefined behaviour, unless it visits a header of size 0 or one that reaches past 2^64; on a file beginning with a box of 64-bit size 0 it never ends, while SimpleReader rejects that file.", "quantifier": "all files, all boxes in them, all stream positions, file and string streams", "why_tests_cant": "ranges over all files; one statement is about non-termination", "anchors": ["src/box_header.cpp BoxHeader::seekToData, BoxHeader::seekToEnd, read_box_header", "src/box.cpp Box::seekToData, Box::seekToEnd"]}
{"id": "C85", "title": "Loading a file and saving its boxes reproduces the file", "statement": "For every file SimpleReader accepts: the header of each box is written with exactly the bytes it was read from (32-bit, 64-bit and to-end-of-file form), and writing every root box read with BoxInfo::write ends without an exception on any stream and changes no box. If every box either is of a class whose fields have one encoding, or has the size the library itself computes for its fields and children and is not one of the classes that forget something (esds, meta, stsz with a common sample size, hdlr with a Pascal string, audio sample entries below wave, iods with a descriptor length other than 7), then what is written to an empty stream is the file, byte for byte; so two such files from which the same boxes are read are the same file. Nothing between, behind or inside the boxes is lost, and no box runs past its parent unnoticed.", "quantifier": "all files, all boxes in them at any depth, any box map, file and string streams", "why_tests_cant": "ranges over all files; a statement about information loss compares all pairs of files", "anchors": ["src/reader/reader.cpp SimpleReader::read, SimpleReader::readBox", "src/box_header.cpp read_box_header, BoxHeader::write", "src/box.cpp Box::write", "src/box_info.cpp BoxInfo::write", "src/box/*.cpp readData, writeData, getDataSize"]}
{"id": "C86", "title": "Files can be put one behind the other, and cut between root boxes", "statement": "If a file is accepted by SimpleReader (read from a string) and none of its boxes extends to the end of the file, then reading that file followed by any other bytes gives exactly what reading the file gave, followed by what reading the other bytes alone gives: the same headers, boxes and fields, only with larger offsets, or the same exception. So the concatenation of any number of accepted files, such as an initialisation segment and its media segments, is accepted and holds their boxes in order. Conversely an accepted file can be cut between any two of its root boxes, if no box before the cut extends to the end of the file: both parts are accepted, and hold the boxes before and behind the cut.", "quantifier": "all pairs and sequences of files, accepted or (for the last of a pair) refused, any box map, file and string streams", "why_tests_cant": "ranges over all files and everything that may follow them; limits computed from the total size at every depth must not matter", "anchors": ["src/reader/reader.cpp SimpleReader::read, SimpleReader::readBox, Reader::readContent", "src/box_header.cpp read_box_header"]}
{"id": "C87", "title": "What uninitialised members contain does not show", "statement": "Several box classes have members that neither the constructor nor (when a flag or version leaves the field out) readData gives a value. Reading the same file twice with anything at all in those members gives the same headers and either the same exception or the same boxes, whose contents print the same text, write the same bytes and have the same size; so dump prints the same, and saving what was read leaves the same stream. The exceptions are an sgpd box of version other than 1 with alternative startup entries, where the uninitialised default_length decides whether the file is accepted, and the fields of a sample entry below a wave box, which print the same but are saved from members that never got a value.", "quantifier": "all files, accepted or refused, all contents of uninitialised members (different in every object), any box map, file and string streams", "why_tests_cant": "a test run sees one content of the uninitialised memory; the claim compares all pairs of contents on all files", "anchors": ["include/shiguredo/mp4/box/sgpd.hpp:160-171", "src/box/sgpd.cpp Sgpd::readData, AlternativeStartupEntry::readData", "include/shiguredo/mp4/box/tfhd.hpp", "include/shiguredo/mp4/box/trun.hpp", "include/shiguredo/mp4/box/sbgp.hpp", "include/shiguredo/mp4/box/sample_entry.hpp:100-112", "src/box/sample_entry.cpp AudioSampleEntry::readData", "src/reader/reader.cpp SimpleReader::readBox"]}
{"id": "C88", "title": "How much call stack reading takes", "statement": "SimpleReader::readBox calls itself for every child box. A file that is accepted needs exactly as many nested calls as its boxes are nested deep, which is at most one per eight bytes of the file; no file, accepted or refused, needs more than one for every eight bytes and one more. There is no smaller bound: for every number of calls there is an accepted file of eight bytes per level (sixteen from 4 GiB) that needs one more, so no fixed call stack is enough for all files.", "quantifier": "all files, accepted or refused, all stack sizes, any box map (the lower bound: the types the library knows), file and string streams", "why_tests_cant": "bounds the recursion on every file, and its failure needs files of unbounded size", "anchors": ["src/reader/reader.cpp SimpleReader::readBox, SimpleReader::read", "src/box_header.cpp read_box_header"]}
{"id": "C89", "title": "What copying payloads costs", "statement": "SimpleReader::readBox copies the whole payload of a box, children included, and keeps the copy until the children are read. Reading an accepted file therefore copies at most the length of the file for every level of boxes, and has no more than that in copies at any time; reading any file copies at most length/8 times its length. The square is real: for every n below 2^29 there is an accepted file of 8(n+1) bytes with 4n(n+1) bytes in copies at the same time, so a file of 1 MiB can require 64 GiB.", "quantifier": "all files, accepted or refused; for the lower bound all numbers of levels and all contents of uninitialised members", "why_tests_cant": "bounds a cost on every file; the failure needs files of unbounded nesting", "anchors": ["src/reader/reader.cpp SimpleReader::readBox (std::stringstream ss, std::copy_n)"]}
{"id": "C90", "title": "The choice of writer changes only positions", "statement": "A program makes the same calls with a SimpleWriter or with a FaststartWriter. The two finished files have the same ftyp box, the same bytes in mdat, and moov boxes that differ in nothing but the chunk offsets (stco or co64); and the chunk offsets of both, counted from where the bytes of mdat start in the file, are the same numbers.", "quantifier": "all sequences of calls, also those that interleave tracks without ending chunks and those whose calls throw; all parameters; all streams without data", "why_tests_cant": "relates two runs of every sequence of calls; the two writers keep positions in different places and shift them at different times", "anchors": ["src/writer/simple_writer.cpp addMdatData, tellCurrentMdatOffset, appendTrakAndUdtaBoxInfo", "src/writer/faststart_writer.cpp addMdatData, tellCurrentMdatOffset, appendTrakAndUdtaBoxInfo", "src/track/track.cpp addMdatData, finalize, resetChunkOffsets"]}
{"id": "C91", "title": "Tracks do not influence each other", "statement": "In the finished file of every program, with either writer, the trak box of every track is, chunk offsets left out, the only trak box in the file of a program that makes just the calls on this track (its constructor included), with a writer, an ftyp box, a time scale, a duration and a clock of its own. What is done with other tracks, in whatever order, changes nothing in it but where its chunks are.", "quantifier": "all sequences of calls, all interleavings, all tracks of them, all parameters of both writers", "why_tests_cant": "relates every sequence of calls to the sequences on its tracks; tracks share the writer and its position", "anchors": ["src/track/track.cpp addMdatData, terminateCurrentChunk, finalize", "src/track/h264.cpp addData", "src/writer/simple_writer.cpp appendTrakAndUdtaBoxInfo", "src/writer/faststart_writer.cpp appendTrakAndUdtaBoxInfo"]}
{"id": "C92", "title": "Where chunks end matters to the chunk tables only", "statement": "Two programs that make the same calls except for calls of terminateCurrentChunk, which each makes where and as often as it likes, end with files that have the same ftyp box, the same bytes in mdat, and moov boxes that differ in nothing but stsc and stco or co64; with either writer.", "quantifier": "all pairs of sequences of calls that are equal without their calls of terminateCurrentChunk, also those that break the rule of C38; all parameters", "why_tests_cant": "relates all pairs of such programs", "anchors": ["src/track/track.cpp terminateCurrentChunk, addMdatData, finalize"]}
{"id": "C93", "title": "The files of both writers are nested eight boxes deep and cheap to read", "statement": "Whatever a program does with either writer and its tracks, the boxes of the finished file are nested exactly eight deep (six when there is no track). Reading it, SimpleReader calls itself to exactly that depth, however many samples, chunks and tracks there are, and copies at most eight times the bytes of the file.", "quantifier": "all sequences of calls, all parameters of both writers, all sizes within the formats of the file", "why_tests_cant": "a bound for every sequence of calls; the reader's depth and copying grow without bound on other files (C88, C89)", "anchors": ["src/reader/reader.cpp readBox", "src/writer/simple_writer.cpp appendTrakAndUdtaBoxInfo", "src/writer/faststart_writer.cpp appendTrakAndUdtaBoxInfo", "src/track/track.cpp makeStblBoxInfo"]}
{"id": "C94", "title": "SimpleReader when seekg or tellg of its input fails", "statement": "Whichever calls of seekg and tellg on the input fail, in the constructor of SimpleReader or during read: read ends, and it does what it does when no call fails, or it throws (only when a call fails), or its behaviour is undefined (only when a tellg fails). What it returns normally is the same in every case. On a file that could not be opened and on a stream without positions (a pipe) the constructor reports nothing and read throws before any byte was read, also for an empty stream; when only the size was not told to the constructor, read never returns normally.", "quantifier": "all contents of fewer than 2^63 bytes, all sets of failing calls, file and string streams", "why_tests_cant": "every subset of an unbounded number of calls may fail, on every file", "anchors": ["src/reader/reader.cpp SimpleReader::SimpleReader, read, readBox", "src/box_header.cpp read_box_header, seekToData", "src/cli/mp4-tool.cpp main"]}
{"id": "C95", "title": "The run-length tables are as short as possible", "statement": "Every other stts table that stands for the durations of a track's samples has more entries than the one the track writes. No stsc table that gives every chunk of the track the number of its samples has fewer entries than the one the track writes, and every other such table in ascending order that refers to the one sample entry has more.", "quantifier": "all tracks with fewer than 2^32 samples and 2^32 - 1 chunks, the first of them not empty (C35: none is); all other tables, also with empty entries, equal neighbours, entries out of order", "why_tests_cant": "compares with every other table", "anchors": ["src/track/track.cpp make_stts_entries, make_stsc_entries"]}
{"id": "C96", "title": "Which codec configurations can come back from a file", "statement": "In every file that the reader accepts, the codec configurations are in range wherever they are nested: fewer than 32 sequence and 256 picture parameter sets of less than 64 KiB in avcC, the bit widths of av1C, a buffer size below 2^24 in esds. So no file at all gives back what a track with a larger configuration was asked to say, and for the finished files of both writers reading gives back what every track was asked to say if and only if every configuration fits.", "quantifier": "all byte strings as files, all environments of uninitialised members; all sessions of both writers below the size limits whose H.264 buffers are byte streams of well-formed NAL units", "why_tests_cant": "speaks about every file that exists, not only about the one the writer made", "anchors": ["src/box/avc.cpp AVCDecoderConfiguration::readData", "src/box/av1c.cpp", "src/box/esds.cpp DecoderConfigDescriptor::readData", "src/track/h264.cpp", "src/track/av1.cpp", "src/track/aac.cpp", "src/track/mp3.cpp"]}
{"id": "C97", "title": "Which times come back exactly", "statement": "Both writers keep times in 32-bit fields. Reading a finished file gives back a track's time of creation, duration, duration in the movie's units and media time to the last bit if and only if the first three are below 2^32 and the media time lies in [-2^31, 2^31); the movie's duration and time of creation if and only if they are below 2^32.", "quantifier": "all sessions of both writers below the size limits whose codec configurations fit (C96); all readers of the file", "why_tests_cant": "the exact range of all 64-bit times, for every program", "anchors": ["src/track/track.cpp makeElstBoxInfo, makeMdhdBoxInfo", "src/track/vide.cpp and src/track/soun.cpp makeTkhdBoxInfo", "src/writer/writer.cpp", "src/box/tkhd.cpp", "src/box/elst.cpp", "src/box/mdhd.cpp", "src/box/mvhd.cpp"]}
{"id": "C98", "title": "The times a player computes from the file", "statement": "The stts box of a track in a finished file, as a reader gets it, gives back the times of all samples (added up from the first one's) and the end of the track if and only if the times the program handed over, with the duration of the track behind them, never step back and never advance by 2^32 or more. While neighbouring times are less than 2^32 apart, every time comes back moved by 2^32 for each step back in front of it.", "quantifier": "all sessions of both writers below the size limits whose codec configurations fit (C96); all readers of the file; all lists of 64-bit times", "why_tests_cant": "the exact condition on all lists of times", "anchors": ["src/track/track.cpp addMdatData, finalize, makeSttsBoxInfo", "src/box/stts.cpp"]}
