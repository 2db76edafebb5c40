SAMPLE = "A unit test checks a handful of values; the claim ranges over "
# ---------------------------------------------------------------- TCG token codec
prop("C01", "Number tokens survive the wire",
 "For every 64-bit value v, the bytes AddNumberToken(v) appends to a command are one atom: a single byte when v < 64, otherwise 0x81/0x82/0x84/0x88 followed by 1/2/4/8 big-endian bytes, the shortest of those that fits. When such an atom arrives in a response, the parser yields exactly one token for it and GetUint64 on that token returns v without error.",
 "every uint64 value", SAMPLE + "2^64 values and four width classes with boundaries.",
 ["tcg/command.go AddNumberToken", "tcg/token.go GetUint64", "tcg/response.go Commit"],
 "Model AddNumberToken and GetUint64 over BitVec 64; prove the encoder equals an independent big-endian specification and that decode after encode is the identity.")
prop("C02", "Byte-string tokens of 1 to 2047 bytes survive the wire",
 "For every string of 1 to 2047 bytes, AddStringToken appends one byte-string atom (short form below 16 bytes, medium form from 16) whose length field is the string's length, and when it arrives in a response GetString and GetBytes on the resulting token return exactly the original bytes.",
 "every byte string of length 1..2047", SAMPLE + "all contents and all lengths across the short/medium boundary.",
 ["tcg/command.go AddStringToken", "tcg/token.go GetString GetBytes"],
 "Encoder equals the specification's short/medium atom; length field arithmetic on bits; decode by dropping the header.")
prop("C03", "Byte-string tokens outside 1..2047 bytes do not survive, and no error is reported",
 "AddStringToken(\"\") appends the atom A1 00, which decodes to a one-byte string holding NUL, not to the empty string. For every string of 2048 bytes or more AddStringToken appends nothing at all and still returns a nil error. With an explicit length argument that differs from the text's length, the header announces the argument and the payload is still the whole text.",
 "every byte string, every explicit length argument", "The silent-loss region is unbounded; a test shows one instance only.",
 ["tcg/command.go AddStringToken"],
 "Exact characterisation of the model for all lengths, with a negative round-trip theorem.")
prop("C04", "A command buffer holds exactly the tokens added, in order",
 "After Init and any sequence of AddToken/AddRawToken/AddStringToken/AddNumberToken calls whose total size fits the buffer and none of which adds an empty raw token, the command buffer contains a zero header of 56 bytes followed by the concatenation, in call order, of each call's own encoding, and every call returned nil. (AddRawToken of an empty slice returns io.EOF and changes nothing.)",
 "every finite sequence of add calls that fits", "Interactions between arbitrarily many appends (overlap, loss, reordering) cannot be enumerated.",
 ["tcg/command.go Init AddToken AddRawToken AddStringToken AddNumberToken", "internal/aligned_buffer.go Write WriteByte"],
 "Induction over the call list; each call is an append of its encoding on the abstract cursor buffer.")
prop("C05", "A full command buffer truncates silently but never writes out of bounds",
 "For every sequence of add calls, without any size limit, no byte outside the 61440-byte command window changes, the write position never passes 61440, and no call panics; a non-empty write that does not fit entirely stores the prefix that fits and still reports success (the token is cut), and only a write at position 61440 exactly reports EOF.",
 "every finite sequence of add calls of any size", "Overflow at every position and every mix of calls; memory safety outside the window cannot be sampled.",
 ["internal/aligned_buffer.go Write WriteByte", "tcg/command.go AddRawToken"],
 "Invariant over operations on the buffer model with an explicit surrounding allocation.")
prop("C06", "Finished commands carry consistent length fields",
 "For every command whose payload plus trailer fits, after Complete the sub-packet length equals the number of token bytes (trailer F9 F0 00 00 00 F1 included unless it was suppressed), the packet length is that plus 12 rounded up with the padding to a multiple of 4, the com-packet length is the packet length plus 24, padding bytes are zero, all other header bytes and all token bytes are unchanged, and all three are big-endian at offsets 52, 40 and 16.",
 "every payload that fits, with and without trailer", "Every residue modulo 4 and every size; nested length consistency is a relation, not a value.",
 ["tcg/command.go Complete", "tcg/types.go OpalHeader"],
 "Model Complete through the struct codec, prove field values, padding and frame.")
prop("C07", "Our own parser reads back our own commands",
 "For every sequence of add calls made of well-formed single tokens that fits a response buffer, parsing the finished command bytes yields exactly the sequence of token encodings followed by the trailer tokens F9 F0 00 00 00 F1.",
 "every finite token sequence that fits", "Unbounded sequences; framing bugs depend on combinations of token widths.",
 ["tcg/command.go", "tcg/response.go Commit"],
 "Compose C04, C06 and the parser theorem C13.")
prop("C08", "Only the first 512 bytes of a command are transmitted",
 "GetCmdSize is always a multiple of 512 and at least the write position; after Complete succeeded it is 512 whatever the command's length, so the buffer handed to the drive is the first 512 bytes: a finished command of at most 512 bytes is transmitted entirely (zero padded), a longer one loses every byte from offset 512 on.",
 "every finished command", "Needs a command longer than 512 bytes and a look at what reaches the drive, for every content.",
 ["tcg/command.go GetCmdSize Complete", "tcg/device.go Exec"],
 "Theorem on the size, the exact transmitted prefix, and a theorem that two different long commands with the same prefix are indistinguishable on the wire.")
prop("C09", "Stamping a command touches only its header fields",
 "SetComId, SetTSN and SetHSN change only bytes 4..7, 20..23 and 24..27 of the command respectively; they commute with one another and never change a token byte. The ComID is stored big-endian in the first two of its four bytes with zeros after.",
 "every command buffer and every value", "Frame conditions quantify over all other bytes.",
 ["tcg/command.go SetComId SetTSN SetHSN"],
 "Byte-level frame theorem on the buffer model.")
# ---------------------------------------------------------------- response parser
prop("C10", "Response parsing always terminates and rejects exactly over-long sub-packets",
 "For every 2048-byte response, parsing terminates; it returns an error exactly when 56 plus the announced sub-packet length exceeds 2048, and then leaves the token list from before untouched; otherwise it succeeds.",
 "every response buffer (2^16384 contents) and every 32-bit length", "Termination over all inputs and the exact acceptance boundary.",
 ["tcg/response.go Commit"],
 "Well-founded scan function; theorem on the decision.")
prop("C11", "Parsed tokens tile the payload",
 "When parsing succeeds, the tokens together with the skipped empty atoms (single byte FF) cover the payload from offset 56 contiguously, in order, without gap or overlap, up to or past the announced end; no token is empty, none begins at or past the end, and only the last one can extend past it.",
 "every response buffer", "Tiling is a property of all token boundaries at once.",
 ["tcg/response.go Commit"],
 "Induction over the scan with a cut-list specification.")
prop("C12", "Token bytes stay inside the payload exactly when the last token is complete",
 "If the payload is a concatenation of complete tokens, every token lies inside the announced payload, so nothing outside the received sub-packet is ever exposed. If the last atom announces more bytes than remain, the token handed to the caller includes bytes beyond the announced end, and beyond the 2048-byte buffer for suitable responses; its content then depends on memory that the drive never sent.",
 "every response buffer and every content of the adjacent memory", "Needs hostile responses and reasoning about memory after the buffer.",
 ["tcg/response.go Commit"],
 "Model memory after the buffer as an arbitrary function; containment theorem for well-formed payloads, over-read theorem for cut ones.")
prop("C13", "The parser inverts the token grammar",
 "For every list of tokens of the TCG grammar (tiny, short, medium, long atoms and control tokens) whose encoding fits, parsing a response carrying that encoding returns exactly these tokens in order, with empty atoms removed.",
 "every finite list of grammar tokens that fits", "Unbounded lists and all four atom widths.",
 ["tcg/response.go Commit"],
 "Independent inductive grammar with its encoder; parse-after-encode by induction.")
prop("C14", "Token lookup is total for non-negative indexes",
 "GetToken(i) returns nil exactly when i is at least the token count, the i-th token for 0 <= i < count, and panics exactly for negative i.",
 "every token list and every int index", "All indexes, including the negative ones the library itself produces.",
 ["tcg/response.go GetToken GetTokenCount"],
 "Direct characterisation on Int indexes.")
prop("C15", "Token classification is total, and tiny atoms are classified with the wrong sign",
 "For every token whose first byte is b, Type is byte-string, signed or unsigned for atoms according to b's flag bits, and b itself for control tokens F0..FF. For short, medium and long atoms the flags follow the TCG encoding. For tiny atoms the sign is inverted: Type says signed for exactly those bytes whose value GetUint64 returns as unsigned, and says unsigned for exactly those that GetUint64 rejects as signed.",
 "all 256 first bytes and all token tails", "A table over the whole first byte combined with arbitrary tails.",
 ["tcg/token.go Type GetUint64"],
 "Specification by the TCG table, kernel-checked over all bytes, lifted to tokens.")
prop("C16", "Numeric accessors: exact value, exact rejections, silent truncation",
 "GetUint64 returns the low six bits for unsigned tiny atoms; for short atoms without the sign bit (byte strings included) the big-endian value of the payload modulo 2^64; and an error for signed tiny or short atoms, medium atoms, long atoms and control tokens. GetUint32/16/8 return the same value modulo 2^32/2^16/2^8 with the same error.",
 "every token of any length", SAMPLE + "all payloads, and payloads above 8 bytes wrap.",
 ["tcg/token.go GetUint64 GetUint32 GetUint16 GetUint8"],
 "BitVec 64 model of the shift loop; theorem against a big-endian fold.")
prop("C17", "Accessors never panic on parsed tokens",
 "For every response, on every token the parser returned, Type, GetUint64, GetString and GetBytes do not panic; GetString and GetBytes return the same bytes, namely the token without its 1/2/4-byte header, an error for tiny atoms and an empty result with nil error for control tokens.",
 "every response buffer and every token in it", "Safety over all hostile responses.",
 ["tcg/token.go", "tcg/response.go Commit"],
 "Invariant of parsed tokens (non-empty and at least header-sized), then totality.")
# ---------------------------------------------------------------- session
prop("C18", "SendCommand succeeds exactly on a success status (or end of session)",
 "SendCommand returns a nil error exactly when the exchange succeeded, the three length fields of the response are non-zero, at least one token was parsed, and either the first token is ENDOFSESSION or there are at least five tokens, the last is ENDLIST, the fifth from the end is STARTLIST and the fourth from the end is an unsigned number whose low byte is 0. A non-zero low byte yields a TCG error carrying exactly that status.",
 "every device behaviour and response", "All responses of an adversarial drive.",
 ["tcg/session.go SendCommand"],
 "Decision-logic theorem (iff) over the session model with an arbitrary device.")
prop("C19", "SendCommand panics exactly on short responses",
 "SendCommand panics exactly when the exchange succeeded, the length fields are non-zero and the response has one to four tokens of which the first is not ENDOFSESSION; no other response panics.",
 "every device behaviour and response", "Absence of panics elsewhere is universal.",
 ["tcg/session.go SendCommand", "tcg/response.go GetToken"],
 "Exact panic condition on the model.")
prop("C20", "Every session command carries the session numbers and the device's ComID",
 "For every session and every command, the bytes handed to the drive have the session's host and TPer session numbers in bytes 24..27 and 20..23, the device's base ComID big-endian in bytes 4..5 followed by two zero bytes, and the security command itself uses security protocol 1 and the same ComID.",
 "every session state, device and command", "Relates all commands in all session states.",
 ["tcg/session.go SendCommand", "tcg/device.go Exec", "tcg/command.go"],
 "Trace theorem on the first I/O of SendCommand.")
prop("C21", "Session numbers are echoed exactly as the drive assigned them",
 "After Start returned without error on a non-enterprise device and the drive's reply carried host session number h and TPer session number t (as unsigned atoms, modulo 2^32), every later command of that session carries h and t as big-endian 32-bit values in its packet header.",
 "every h, t, challenge, authority of at most 50000 bytes, and every later command", "The double byte swap through native memory must cancel for every value.",
 ["tcg/session.go Start SendCommand"],
 "Byte-swap algebra on BitVec 32 and a little-endian host; trace theorem.")
prop("C22", "Opening a session sends exactly the StartSession call for the requested SP",
 "On a non-enterprise SSC device Start sends exactly one command: a CALL of method StartSession on the session manager with a list of the number 105, the SP's UID, the number 1, and, only when a challenge was given, two named values: 0 with the challenge and 3 with the signing authority. Its session numbers are those of the session before the call (zero for a fresh session).",
 "every SP, every challenge and every authority of at most 50000 bytes", "All credential contents and lengths.",
 ["tcg/session.go Start"],
 "Payload theorem against a grammar-level specification of the call.")
prop("C23", "Which credential bytes leave the host",
 "With hashing disabled the challenge value on the wire is the challenge's own bytes. With hashing enabled it is the 34-byte string D0 20 followed by the 32-byte derived key (the atom header is included in the value, so the drive sees a 34-byte challenge), and the command does not otherwise depend on the challenge. With an empty challenge neither challenge nor authority appears.",
 "every challenge, authority and key-derivation function", "Secrecy-style dependence over all passwords.",
 ["tcg/session.go Start Authenticate", "tcg/utils.go TcgHashPassword"],
 "Key derivation as an arbitrary function; payload equality theorems.")
prop("C24", "Password hashing ignores everything past 32 bytes",
 "TcgHashPassword depends only on the first 32 bytes of the password and on the drive serial: any two passwords that agree on their first 32 bytes produce the same credential; the unhashed form is D0, the truncated length, and at most 32 bytes of the password.",
 "every pair of passwords", "Quantifies over pairs of inputs.",
 ["tcg/utils.go TcgHashPassword"],
 "Non-interference theorem with an arbitrary key derivation.")
prop("C25", "Closing a session never talks to the drive",
 "In every history of session operations, Close performs no I/O, because no operation ever marks a session as open; sessions opened on the drive are never closed by the library.",
 "every finite history of session operations and every device", "Invariant over unbounded histories.",
 ["tcg/session.go Close Start"],
 "Invariant sessionOpened = false over operation lists; trace unchanged by Close.")
prop("C26", "RevertTPer issues the revert only after authentication succeeded",
 "For every device behaviour, RevertTPer on an Opal drive sends at most two commands; the first is StartSession on the Admin SP with the given password and authority SID (or PSID), and the Revert call on the Admin SP is sent only if the first exchange returned a success status and both session numbers were readable. If starting the session fails, nothing destructive is sent and the same error is returned.",
 "every device behaviour, password and flag", "A safety claim over all adversarial responses.",
 ["tcg/device_opal.go revertTPer"],
 "Trace theorem on the interaction model.")
prop("C27", "RevertTPer reports success only if the drive reported success twice",
 "If RevertTPer returns nil, then the drive answered both StartSession and Revert with accepted responses (status 0 or end-of-session).",
 "every device behaviour", "Universal over responses; a test cannot show the absence of a false success.",
 ["tcg/device_opal.go revertTPer", "tcg/session.go SendCommand"],
 "Inversion on the interaction model.")
prop("C28", "PSID reverts are unhashed, SID reverts are hashed",
 "RevertTPer with the PSID flag uses the PSID authority and sends the password bytes unhashed; without the flag it uses the SID authority and sends only the derived key; the isAdminSp argument never changes what an Opal drive receives.",
 "every password and flag combination", "All passwords; which of two secrets leaves the host.",
 ["tcg/device_opal.go revertTPer RevertTPer"],
 "First-command payload theorem per flag.")
prop("C29", "Reading the default password sends no secret and returns the drive's string verbatim",
 "GetDefaultPassword on an Opal drive opens an anonymous session on the Admin SP and issues one Get on C_PIN_MSID restricted to the PIN column; when it succeeds the result is the payload of the fifth token of the reply, and it errors if there is no such token.",
 "every device behaviour", "All responses.",
 ["tcg/device_opal.go getDefaultPassword opalGetTable"],
 "Trace and result theorem.")
prop("C30", "Enterprise and generic devices never receive a command",
 "On an Enterprise device and on a generic device, RevertTPer, GetDefaultPassword, session Start, Authenticate and SendCommand perform no I/O at all and fail with \"not supported\"; the Enterprise code paths are unreachable.",
 "every sequence of such operations", "Universal over operations and arguments.",
 ["tcg/device_enterprise.go", "tcg/device.go Exec IsAnySSC"],
 "Exec refuses before I/O because the enterprise type does not override the SSC test.")
# ---------------------------------------------------------------- device
prop("C31", "One send, then receives, all on the same protocol and ComID",
 "For every device behaviour, Exec on an SSC device performs exactly one security send carrying the command's transmitted bytes, then (if the send succeeded) at least one security receive of 2048 bytes, and nothing else; all use the given protocol and the device's base ComID with a 5 second timeout.",
 "every device behaviour", "All interleavings of replies.",
 ["tcg/device.go Exec"],
 "Trace shape theorem by induction over the polling loop.")
prop("C32", "Polling continues exactly while the drive says more is pending",
 "Exec polls again exactly when the last receive succeeded, the timeout had not expired and the response has a non-zero outstanding count and zero minimum transfer; the response it parses is the last one received, into a buffer that was zeroed beforehand, so no byte of an earlier response survives.",
 "every sequence of drive responses", "Unbounded polling sequences.",
 ["tcg/device.go Exec", "tcg/response.go Reset"],
 "Induction over the loop; final response equals last reply.")
prop("C33", "Polling is bounded in time",
 "If each 25 ms sleep advances the clock by at least 25 ms, Exec performs at most 402 receives and returns; when the clock passed 10 seconds before a receive, that receive's data is discarded with error \"timeout\". Any send or receive error is returned unchanged at once.",
 "every device behaviour and every clock satisfying the sleep assumption", "Termination over infinite response streams.",
 ["tcg/device.go Exec"],
 "Fuel-indexed loop with a clock oracle; the fuel is proved sufficient.")
prop("C34", "Device kind selection",
 "NewTcgDevice chooses Opal 1 if the drive advertises SSC V1.00, else Opal 2 if V2.00, else Enterprise, else generic; never fails; and depends only on the discovery information and serial at that moment.",
 "every discovery record", "All flag combinations, and independence from later changes.",
 ["tcg/device.go NewTcgDevice", "tcg/drive_handle.go NewTcgDriveHandle"],
 "Decision theorem.")
prop("C35", "Lock-state queries report exactly the locking descriptor's bits",
 "IsLockingEnabled, IsLocked, IsMediaEncryption, IsMBREnabled and IsMBRDone return bits 1, 2, 3, 4 and 5 of byte 4 of the last locking descriptor (of at least five bytes) found by discovery, and false whenever discovery did not report locking; for a locking descriptor without body they report the byte that happens to follow it.",
 "every discovery response", "All descriptor contents through discovery.",
 ["tcg/device.go IsLocked IsLockingEnabled IsMBREnabled IsMBRDone IsMediaEncryption"],
 "Compose discovery walk and getter; bit-level theorem.")
prop("C36", "Base ComID and ComID count come from the SSC descriptor",
 "GetBaseComId and GetNumComIds return the big-endian 16-bit values at bytes 4 and 6 of the last descriptor (of at least eight bytes) for the device's own SSC, and 0 for a generic device.",
 "every discovery response and device kind", "All descriptor contents.",
 ["tcg/device_opal.go GetBaseComId GetNumComIds", "tcg/device_enterprise.go"],
 "Byte-level theorem per device kind.")
# ---------------------------------------------------------------- discovery
prop("C37", "Discovery terminates and panics exactly on an overrunning descriptor",
 "For every 2048-byte discovery response, TcgDiscovery0 terminates; it reports \"length overflow\" exactly when the announced length exceeds 2048; it panics exactly when some visited descriptor's announced size runs past 2048; otherwise it returns nil.",
 "every discovery response", "Termination and panic-freedom over all responses.",
 ["common/drive_handle.go TcgDiscovery0"],
 "Well-founded walk with explicit panic outcome and an exact characterisation through the descriptor walk specification.")
prop("C38", "Feature flags mirror the descriptors",
 "After a successful discovery on a fresh handle, each of the eight feature flags is true exactly when the walk visited a descriptor with that feature's code.",
 "every discovery response", "All descriptor sequences.",
 ["common/drive_handle.go TcgDiscovery0"],
 "Induction over the walk.")
prop("C39", "The raw feature table keeps the last descriptor of each code, complete",
 "After a successful discovery on a fresh handle, the raw feature for code c is present exactly when a descriptor with code c was visited and is then the full descriptor (header included, length byte plus 4 bytes) of the last such descriptor.",
 "every discovery response and every code", "All sequences with duplicates.",
 ["common/drive_handle.go TcgDiscovery0"],
 "Induction over the walk with a last-wins specification.")
prop("C40", "Starting the walk at byte 32 instead of 48 is harmless for compliant drives",
 "The walk starts at offset 32 although the specification's header has 48 bytes. If bytes 32..47 are zero, the walk visits four empty descriptors of code 0 and then continues at 48, so flags and raw features other than code 0 are those of a walk from 48; with non-zero vendor bytes there it misreads them as descriptors.",
 "every response whose vendor area is zero; every response", "Equivalence over all compliant responses.",
 ["common/drive_handle.go TcgDiscovery0", "tcg/types.go Discovery0Header"],
 "Four unfoldings of the walk plus the accumulation theorem; a witness for the other case.")
prop("C41", "TCG support indicator",
 "Discovery sets the support indicator to -1 exactly when the security command failed with \"not supported\", to 0 when it failed with any other error, and to 1 whenever it succeeded (even if the response is then rejected); on failure no flag and no raw feature changes.",
 "every driver error and response", "All error values.",
 ["common/drive_handle.go TcgDiscovery0"],
 "Case theorem.")
prop("C42", "Rediscovery never forgets",
 "Across any sequence of discoveries on one handle, a feature flag once set stays set, and a raw feature once present stays present; so a feature the drive no longer reports is still reported.",
 "every sequence of responses", "Unbounded histories.",
 ["common/drive_handle.go TcgDiscovery0"],
 "Monotonicity by induction over discoveries.")
prop("C43", "Typed descriptor decoders: which can succeed",
 "On the 16-byte feature union ToBasic, ToOpalSscV100, ToSingleUserMode and ToDataStoreTable always succeed with every field the big-endian number at its offset in the TCG descriptor and GetVersion the high nibble; ToTper, ToLocking, ToGeometry, ToOpalSscV200 and ToEnterpriseSSC fail for every content, since their records are longer than the union.",
 "every 16-byte content", SAMPLE + "2^128 contents.",
 ["tcg/types.go Discovery0FeatureUnion"],
 "Struct codec with layouts taken from the type declarations.")
# ---------------------------------------------------------------- drive handle
prop("C44", "Security commands: driver first, one fallback at most",
 "DriveHandle.SecurityCommand first asks the driver; on success it stops. On failure an ATA driver gets exactly one taskfile command and an NVMe driver exactly one admin command, whose result is the final result; any other driver's error is returned as is. After Close it fails with \"not supported\" without I/O.",
 "every driver behaviour and argument", "All driver replies.",
 ["common/drive_handle.go SecurityCommand"],
 "Interaction-tree theorem.")
prop("C45", "ATA trusted send/receive registers",
 "The ATA fallback uses opcode 5E/5F for sending (PIO/DMA) and 5C/5D for receiving, the security protocol in the feature register, the ComID little-endian across LBA mid/high, and the buffer length in 512-byte blocks modulo 256 in the sector count: the count matches the buffer exactly for multiples of 512 below 131072, and is wrong otherwise.",
 "every protocol, ComID, buffer length", "All lengths including wrap-around.",
 ["common/drive_handle.go SecurityCommand", "ata/types.go"],
 "Register theorem and exact characterisation of the count.")
prop("C46", "NVMe security send/receive encoding is faithful",
 "The NVMe fallback uses opcode 81h to send and 82h to receive, with protocol, ComID and length recoverable from CDW10 bits 31..24, 23..8 and CDW11, for every protocol and ComID and every length below 2^32.",
 "every protocol, ComID, length", "Bit-field disjointness over all values.",
 ["common/drive_handle.go SecurityCommand"],
 "BitVec field-extraction theorem.")
prop("C47", "Close is idempotent and final",
 "In any sequence of operations on a drive handle the driver is closed at most once, and after Close no operation reaches the driver: SecurityCommand and discovery fail with \"not supported\", taskfile and log-page calls with \"not supported in this driver\", while GetDrivingType and GetDriverName panic.",
 "every finite history of operations", "Histories are unbounded.",
 ["common/drive_handle.go Close"],
 "State machine over operations, invariant over histories.")
prop("C48", "Identity strings are trimmed, word-swapped copies of the identity data",
 "After Init on an ATA drive, model (bytes 54..93), firmware (46..53) and serial (20..39) are the identity bytes with each pair swapped and with all leading and trailing space, tab, CR, LF and NUL removed; the raw serial is the swapped, untrimmed 20 bytes. On NVMe they are bytes 24..63, 64..71 and 4..23 unswapped.",
 "every identity block", "All 512-byte and 4096-byte contents.",
 ["common/drive_handle.go Init", "ata/types.go IdentityDeviceData", "nvme/types.go IdentifyController"],
 "Layout codec plus trim specification (maximal, both ends).")
prop("C49", "SMART and SSD flags",
 "On ATA, SMART is reported enabled exactly when bit 0 of word 82 and bit 0 of word 85 are set; the SSD weight is 1 for form factor 5 plus 1 for rotation rate 0 or 1, and the drive counts as SSD exactly when the weight is positive. On NVMe both flags are true.",
 "every identity block", "All identity contents.",
 ["common/drive_handle.go Init", "ata/types.go"],
 "Bit-level theorem through the layout.")
prop("C50", "Init succeeds whenever the identity block is complete",
 "Init never panics and returns nil for every driver whose identity has at least 512 (ATA) or 4096 (NVMe) bytes, whatever the drive answers to discovery unless a descriptor overruns; with a shorter identity it returns an error, leaves the handle without discovery, and still records the identity bytes as they came.",
 "every identity block and drive answer", "All contents and lengths.",
 ["common/drive_handle.go Init"],
 "Totality theorem through the struct codec.")
# ---------------------------------------------------------------- buffers, byte order
prop("C51", "Aligned buffers are aligned and in bounds",
 "For every allocation address, every alignment of at least 1 and every size, the buffer's data pointer is a multiple of the alignment and the size bytes from it lie inside the allocation.",
 "every address, alignment, size", "Addresses are chosen by the runtime.",
 ["internal/aligned_buffer.go NewAlignedBuffer IsAlignedPointer"],
 "Arithmetic theorem.")
prop("C52", "Buffers behave as a fixed-size array with two cursors",
 "Every sequence of Write, WriteByte, Read, Reset, ResetRead, ResetWrite and in-range position and limit changes on an AlignedBuffer returns the same results and data as a plain byte array with a read and a write cursor; reads after writes return the written bytes; nothing outside the window changes. A WrappedBuffer does the same on its slice, and as long as its limit is not raised above the slice's length it neither touches nor looks at what lies between length and capacity.",
 "every finite operation history", "Unbounded histories.",
 ["internal/aligned_buffer.go", "internal/wrapped_buffer.go"],
 "Refinement to an abstract array with cursors, by induction.")
prop("C53", "ATA byte swapping",
 "AtaSwapWordEndian swaps the two bytes of each word for every even length, is its own inverse, and panics exactly for odd lengths, leaving all whole words swapped and the last byte as it was; AtaSwap16 and AtaSwap32 reverse byte order and are involutions.",
 "every byte slice; every 16/32-bit value", "All contents and lengths.",
 ["internal/utils.go"],
 "List and BitVec theorems.")
prop("C54", "FixAtaStringOrder",
 "For even lengths FixAtaStringOrder returns the word-swapped bytes up to (not including) the first NUL of the swapped data, with trailing spaces removed exactly when asked; it does not modify its input; on odd lengths it panics exactly if no NUL was met before the last byte.",
 "every byte slice", "All contents, all NUL positions.",
 ["ata_util/utils.go FixAtaStringOrder"],
 "Loop model against takeWhile/dropTrailing specification.")
prop("C55", "LBA48 decision",
 "IsNeedsLba48 is true for the ten EXT/DSM opcodes, false for the four fixed opcodes, and for any other opcode true exactly when the sector count exceeds 255, or the start sector or the last sector of the transfer is at least 2^28 - 1; no arithmetic wrap-around occurs in that decision.",
 "every opcode, 64-bit LBA, sector count", SAMPLE + "2^64 x 2^64 pairs with boundaries.",
 ["ata_util/utils.go IsNeedsLba48"],
 "Unsigned wrap-around arithmetic modelled in BitVec 64.")
prop("C56", "TfInit has no effect for its caller",
 "TfInit takes the taskfile by value, so for every argument the caller's taskfile is unchanged; the registers it computes locally would decode (by the Linux driver's address computation) to the LBA modulo 2^48 when LBA48 is used and otherwise to the LBA modulo 2^28, which is the LBA itself unless the opcode is one of the four fixed 28-bit ones.",
 "every taskfile, opcode, LBA, count", "All values.",
 ["ata_util/utils.go TfInit", "plat_linux/sg_driver.go tfToLba"],
 "Model both the callee's local copy and the caller's view.")
# ---------------------------------------------------------------- Linux drivers
prop("C57", "SG taskfile CDBs are faithful",
 "For every taskfile the CDB sent to the kernel is ATA PASS-THROUGH(16) with the EXTEND bit if LBA48 is set and (12) otherwise, and all registers used by the respective form can be read back from it; protocol, transfer-length, byte-block, direction and check-condition fields match the data presence, direction and DMA flag.",
 "every taskfile, direction, data presence", "All register values.",
 ["plat_linux/sg_driver.go doTaskFileCmd", "plat_linux/types_ata_passthu.go"],
 "CDB byte theorem and decoder specification after SAT.")
prop("C58", "Linux taskfile writes always send zeros",
 "For every write (rw) with data, the caller's buffer is zeroed before the first ioctl and the bytes transferred are zeros, whatever the caller supplied; reads do not zero the buffer first.",
 "every buffer and taskfile", "Non-interference over all contents.",
 ["plat_linux/sg_driver.go doTaskFileCmd"],
 "Trace theorem: request data equals zeros.")
prop("C59", "At most two ioctls per command, the second only after a failure",
 "doTaskFileCmd and scsiSecurityCommand issue one SG_IO, and a second one exactly if the first failed; the second carries the same CDB and length; the result is nil only if one of them succeeded.",
 "every kernel behaviour", "All kernel replies.",
 ["plat_linux/sg_driver.go"],
 "Interaction theorem.")
prop("C60", "Sense data becomes an error; registers are reported back otherwise",
 "When the first ioctl succeeds, a non-zero sense key yields an error carrying the status and sense data and leaves the taskfile unchanged; a zero key updates the taskfile from the descriptor bytes and returns nil. After a successful second ioctl the sense data of that ioctl is discarded and nothing it returned reaches the caller's read buffer.",
 "every kernel behaviour", "All sense contents.",
 ["plat_linux/sg_driver.go doTaskFileCmd"],
 "Case theorem on the model.")
prop("C61", "SCSI security CDBs are faithful",
 "The SG security command uses opcode B5 to send and A2 to receive, protocol in byte 1, ComID big-endian in bytes 2..3 and the length big-endian in bytes 6..9; sends transmit the caller's bytes unchanged and receives start from a zeroed buffer.",
 "every protocol, ComID, buffer", "All values.",
 ["plat_linux/sg_driver.go scsiSecurityCommand", "plat_linux/sg_types.go"],
 "CDB theorem through the struct codec, trace theorem.")
prop("C62", "NVMe log pages: one identical command retried",
 "NvmeGetLogPageByAdminPassthru issues the same full-size Get Log Page command at offset 0 until it first succeeds, at most ceil(size/4096) times and not at all for size 0; it returns nil error exactly if size is 0 or some attempt succeeded.",
 "every size and device behaviour", "Unbounded sizes and failure sequences.",
 ["common/nvme/default.go"],
 "Loop induction with a device oracle.")
prop("C63", "NVMe log page command fields",
 "For a log id of 8 bits and a size from 4 bytes up to 2^34, every Get Log Page command names exactly that log id and retain flag, log specific fields 0, offset 0, and asks for floor(size/4) dwords (zero-based count split over CDW10 and CDW11), with the size as data length; sizes 1 to 3 ask for 2^32 dwords, and a negative size panics before any command.",
 "every size, log id, flag and device behaviour", "All sizes around the 16-bit split and the wrap-around.",
 ["common/nvme/default.go"],
 "Decoding specification of the command dwords; arithmetic on disjoint bit fields.")
prop("C64", "NVMe passthrough copies every command field",
 "DoNvmeAdminPassthru hands the kernel a record equal to the caller's in all 18 fields; DoNvmeIoPassthru copies all but the data length, which is always 0.",
 "every command record", "All field values.",
 ["plat_linux/nvme_driver.go"],
 "Record equality theorem.")
prop("C65", "ioctl numbers",
 "IOC packs direction, type, number and size so that each is recoverable when in range, and distinct in-range inputs give distinct numbers; IOR encodes the read-write direction instead of read.",
 "every in-range quadruple", "Injectivity over all inputs.",
 ["plat_linux/ioctl_utils.go", "plat_linux/nvme_ioctl.go"],
 "BitVec theorem.")
prop("C66", "CDB bit-field setters",
 "Every setter except SetMultipleCount and SetExtend stores its value so that its getter reads it back and no other field of the CDB changes. SetMultipleCount instead overwrites the second flag byte and leaves the multiple count unchanged; SetExtend changes the low bit of the transfer-length field and never the EXTEND bit of the command.",
 "every CDB and value", "All byte values.",
 ["plat_linux/types_ata_passthu.go", "plat_win/ata_passthu_types.go", "plat_linux/types_cdb.go"],
 "BitVec 8 theorems, kernel-checked over all bytes.")
# ---------------------------------------------------------------- factories and volumes
prop("C67", "Drive opening on Linux: last matching driver wins; opening never fails after the device opened",
 "OpenByPath returns an error exactly when the device node cannot be opened; otherwise the handle uses the last driver in list order that accepted it (or none), and Init ran once per accepting driver. If none accepted, the file descriptor is owned by nobody: Close on the handle does not release it.",
 "every combination of driver results", "All accept/reject patterns, resource leak over histories.",
 ["plat_linux/drive_factory.go OpenByPath OpenByFd"],
 "Fold model with descriptor ownership.")
prop("C68", "Drive enumeration filter",
 "EnumDrives opens exactly the block devices of /sys/block whose name contains neither \"loop\" nor \"sr\", in directory order, and reports one record per device that could be opened.",
 "every directory content and stat/open result", "All directories.",
 ["plat_linux/drive_factory.go EnumDrives"],
 "List filter theorem.")
prop("C69", "Volume enumeration groups mounts by device",
 "EnumVolumes yields one volume per distinct device field of /proc/mounts; its mount points are exactly the mount fields of that device's lines in order, and its file system is the one on the first such line (lines with an empty device field keep the last one). It fails if the table cannot be opened.",
 "every mounts table", "All tables with duplicates.",
 ["plat_linux/volume.go EnumVolumes"],
 "Refinement to group-by specification by induction on lines.")
prop("C70", "Opening a drive by volume path depends on map order",
 "OpenDriveByVolumePath looks only at the first entry in map iteration order: it opens the drive if that entry matches and otherwise returns nil without error, so with two or more volumes there is an iteration order in which an existing volume is not found.",
 "every volume map and iteration order", "Go's map order is random; a test may pass by luck.",
 ["plat_linux/volume.go OpenDriveByVolumePath"],
 "Model iteration order as an arbitrary permutation.")
prop("C71", "MBR table reading",
 "The MBR reader accepts exactly 512-byte sectors ending in 55 AA and returns the little-endian 32-bit identifier at offset 440.",
 "every sector", "All contents.",
 ["internal/direct_mbr/table.go"],
 "Byte theorem.")
prop("C72", "Null-terminated text extraction",
 "readNullTerminatedAscii returns the bytes from the offset up to the first NUL, and the empty string when the offset is not positive or no NUL follows, and panics exactly if the offset exceeds the buffer; wcslen returns the index of the first zero or the length.",
 "every buffer and offset", "All contents and offsets.",
 ["plat_linux/utils.go", "plat_win/utils.go"],
 "List theorems.")
# ---------------------------------------------------------------- Windows
prop("C73", "Windows drivers zero every outgoing buffer",
 "On Windows, ATA and SCSI taskfile writes and SCSI security sends transmit zeros whatever the caller supplied (for security sends this erases the TCG command), and receives do not clear the buffer.",
 "every buffer", "Non-interference over contents.",
 ["plat_win/ata_driver.go doTaskFileCmd", "plat_win/scsi_driver.go doTaskFileCmd scsiSecurityCommand"],
 "Trace theorem.")
prop("C74", "Windows ATA fallback judges the command byte instead of the status",
 "When the direct ATA ioctl fails and the buffered one succeeds, the driver tests bits 0 and 3 of the command opcode it had put in the register image (the image is not copied back), so the outcome is decided by the opcode and is independent of the drive's status; for IDENTIFY DEVICE (EC) it always fails.",
 "every kernel behaviour and opcode", "All replies.",
 ["plat_win/ata_driver.go doTaskFileCmd"],
 "Interaction theorem.")
prop("C75", "Windows: first matching driver wins",
 "OpenByHandle uses the first driver in list order that accepts the handle and does not try later ones.",
 "every combination of driver results", "All patterns.",
 ["plat_win/drive_factory.go OpenByHandle"],
 "Fold theorem.")
prop("C76", "Windows volume mount points stop after the first",
 "For every multi-string of mount points the enumeration records at most one: the first string.",
 "every mount point list that fits the 4096-character buffer", "All lists.",
 ["plat_win/volume.go EnumVolumes"],
 "Loop model on the UTF-16 buffer.")
# ---------------------------------------------------------------- added while modelling
prop("C77", "Authenticate succeeds exactly when the drive's result has low byte 0",
 "For every device behaviour Authenticate sends one Authenticate call (authority as given; the hashed or plain challenge only if non-empty) and returns nil exactly when that command was answered by an accepted response whose second token carries a number with low byte 0. An accepted response carrying TRUE (1) is therefore reported as a failure and FALSE (0) as success.",
 "every device behaviour, authority, challenge", "All responses; an inverted verdict passes any test written against the same mistake.",
 ["tcg/session.go Authenticate"],
 "Verdict theorem (iff) on the interaction model; payload theorem.")

prop("C78", "On Linux the ATA fallback of a TCG send transmits zeros",
 "When the SG driver's own SCSI security command fails for a send, the handle falls back to the ATA trusted send through the SG taskfile path, and the data phase of that command consists of zeros whatever the caller (for instance a TCG session) supplied.",
 "every buffer, protocol, ComID and kernel behaviour", "A defect across two layers; tests with a fake driver never see the wire.",
 ["common/drive_handle.go SecurityCommand", "plat_linux/sg_driver.go doTaskFileCmd"],
 "Compose the handle model with the SG driver model and inspect the transferred bytes.")
prop("C79", "The NVMe identity record in DriveInfo is decoded big-endian",
 "After Init on an NVMe drive every multi-byte integer of the decoded identity record is the big-endian value of its bytes, while NVMe stores them little-endian; strings and raw data are unaffected.",
 "every identity block", "Holds for all identity blocks; a test with palindromic values cannot tell.",
 ["common/drive_handle.go Init", "nvme/types.go IdentifyController"],
 "Field theorem on the unpacked record.")
prop("C80", "Discovery's use of the length field",
 "The announced length of a discovery response does not count its own four bytes, yet the walk treats it as the end of the data. A response whose descriptors end exactly at announced length plus four is nevertheless visited completely, unless its last descriptor has an empty body, which is then skipped.",
 "every response", "All descriptor sequences.",
 ["common/drive_handle.go TcgDiscovery0"],
 "Theorem on cuts of the buffer into descriptors.")

prop("C81", "ReadSmart reads values, then thresholds, into one buffer",
 "ReadSmart issues a SMART READ DATA (D0) and, only if it succeeded, a SMART READ THRESHOLDS (D1) taskfile on the same 512-byte buffer, which is not cleared in between, so bytes the second command does not deliver show the first one's data; it returns the first error it meets, otherwise both decoded records, whose fields are the bytes at the offsets of ATA's SMART tables, except that the 16-bit revision and attribute flags come out with their two bytes exchanged; it never panics on an open or closed handle.",
 "every handle, timeout and driver behaviour", "All driver replies, including short ones.",
 ["ata_util/utils.go ReadSmart"],
 "Interaction theorem over the handle model.")
prop("C82", "A rejected SG security command counts as success",
 "The SG driver's security command asks the kernel for 0 bytes of sense data and decides by the ioctl result alone: it returns nil exactly if one of its (at most two) ioctls returned nil, whatever SCSI status and sense data the drive produced.",
 "every drive and kernel behaviour", "A drive that accepts the command cannot show it; all statuses and sense contents.",
 ["plat_linux/sg_driver.go scsiSecurityCommand"],
 "Interaction theorem under the SG_IO contract (at most mx_sb_len sense bytes are written).")
prop("C83", "SG timeouts: seconds passed as milliseconds",
 "Every ioctl of a taskfile command carries the caller's number of seconds in the header's millisecond field (modulo 2^32), while every ioctl of a security command carries 1000 times that number (modulo 2^32).",
 "every timeout, command and kernel behaviour", "All values, including those that wrap around.",
 ["plat_linux/sg_driver.go doTaskFileCmd scsiSecurityCommand"],
 "Request theorem.")
prop("C84", "SG verdict and the sense format",
 "When the ioctl succeeds, a taskfile command on Linux returns nil exactly if the sense key is 0, provided the sense data is in fixed format; for descriptor format (the format that carries ATA registers) the verdict is instead decided by the low half of the additional sense code, so for instance an aborted command is reported as success.",
 "every sense content", "All 2^256 sense buffers.",
 ["plat_linux/sg_driver.go doTaskFileCmd", "scsi/types.go GetSenseKey"],
 "Case theorem against a specification of both sense formats.")
prop("C85", "Opening a drive through the SG driver",
 "Opening sends IDENTIFY DEVICE once, and once more only if the ioctl failed; it succeeds exactly if an ioctl succeeded and the first one's sense area shows key 0 in fixed format; the identity then is what the first ioctl delivered (even if that ioctl failed) followed by zeros; it never panics.",
 "every kernel behaviour and buffer placement", "All replies and all allocation addresses.",
 ["plat_linux/sg_driver.go openImpl"],
 "Composition of the taskfile theorems with the aligned buffer model.")
prop("C86", "ioctl results: device status and system error share one namespace",
 "The Linux ioctl wrapper reports nil exactly if the system call's return value and error number are both zero; a positive return value n (the NVMe status) and the error number n give the same error value.",
 "every return value and error number", "All pairs.",
 ["plat_linux/utils.go ioctl"],
 "Case theorem.")
prop("C87", "Opening a drive through the Linux NVMe driver",
 "Opening issues exactly one Identify Controller command for 4096 bytes, succeeds exactly if that ioctl succeeds, and the identity is then what the device delivered into a zeroed 4096-byte buffer.",
 "every kernel behaviour", "All replies, including short ones.",
 ["plat_linux/nvme_driver.go openImpl ReadIdentify"],
 "Interaction theorem.")
prop("C88", "Security commands through the handle on Linux NVMe",
 "On the Linux NVMe driver SecurityCommand becomes exactly one ioctl: an NVMe Security Send (81h) or Receive (82h) with the caller's protocol and ComID, the buffer length as transfer length and data length, and the buffer exactly as supplied; the result is the ioctl's and delivered bytes are found in the buffer. The caller's timeout and DMA flag have no effect.",
 "every handle, argument, non-empty buffer below 4 GiB and kernel behaviour", "Two layers with an always-failing first attempt; all kernel replies.",
 ["common/drive_handle.go SecurityCommand", "plat_linux/nvme_driver.go SecurityCommand DoNvmeAdminPassthru"],
 "Composition (interp) of the handle model with the driver model.")

prop("C89", "Capacity and partition data of an opened drive on Linux",
 "A drive opened by path reports the capacity, partition style, GPT id and MBR signature found by ReadBasicInfo on the opened descriptor; ReadBasicInfo succeeds exactly if the partition library opens the device and HDIO_GETGEO succeeds, whatever the size ioctl said. If HDIO_GETGEO fails (as on NVMe devices) the record shows capacity 0 and style raw although both are known. The drivers tried afterwards never change these fields.",
 "every answer of the kernel and of the partition library, every driver behaviour", "All combinations of failing probes; a test machine has one.",
 ["plat_linux/utils.go ReadBasicInfo", "plat_linux/drive_factory.go OpenByFd"],
 "Case analysis of the probe program; invariance of the fields through the driver loop.")
prop("C90", "Model and serial from /dev/disk/by-id",
 "For every directory content and every iteration order of the map, the model and serial reported before a driver answers are those carried by the name of some not-ignored link that resolves to the device path and contains an underscore (serial after the last underscore, model between the first hyphen and it), empty if there is none; one link that cannot be resolved empties all four texts, whichever drive it belongs to; if two links qualify either can be reported. When no driver accepts, these are the final texts.",
 "every directory, resolution result, map order", "All directories and Go's random map order.",
 ["plat_linux/drive_factory.go getIdInfo"],
 "Induction over the directory; permutation-invariant statement; declarative reading of the regular expression and of LastIndex/Cut.")

prop("C91", "Partition information of mounted volumes",
 "For every mount table and system behaviour, a volume carries partition information exactly if some line for its device (\"/dev/…<digit>p<number>\") led to an inquiry that opened the parent drive, read its partition table and geometry, and found an entry with that number (from 1); it is that entry of the last such inquiry: style, type, identifiers and start of the entry, and the parent path from the name. The reported size is always the start of the partition, never its size.",
 "every mount table, every drive and library behaviour", "All tables and all interleavings of duplicate lines; a fixture whose start equals its size hides the wrong size.",
 ["plat_linux/volume.go EnumVolumes, PartitionImpl", "plat_linux/utils.go ReadBasicInfo"],
 "Trace specification (inquiries per line) proved by induction on the lines; soundness theorem for the reported values.")
prop("C92", "Enumerating volumes leaks one descriptor per partition line",
 "A successful EnumVolumes opens the parent drive once for each mount line whose device is a partition — again for every further line on the same drive — and closes none of these descriptors.",
 "every mount table, every system behaviour", "Counts over all tables; a leak is invisible in return values.",
 ["plat_linux/volume.go EnumVolumes"],
 "Trace theorem (list of opens, no close).")
prop("C93", "Partition number 0 crashes volume enumeration",
 "EnumVolumes panics only when a mounted device is named …p0 (00, …) and its drive has a partition table; when all drives are readable it panics exactly if such a device is mounted. Without such a name it always returns.",
 "every mount table, every system behaviour", "Absence of panics over all inputs.",
 ["plat_linux/volume.go EnumVolumes"],
 "Corollaries of the trace specification.")
prop("C94", "Finding volumes of a drive",
 "FindVolumesByDrive returns the volume whose device field equals the drive's path: exactly one if the drive itself is mounted, none otherwise, even if partitions of the drive are mounted. GetList reports every volume once: for each device of the mount table its path, the file system and mount points of its lines, and the partition found for it, if any.",
 "every mount table and drive path", "All tables.",
 ["plat_linux/volume.go FindVolumesByDrive GetList"],
 "From the grouping specification.")
prop("C95", "Errors that end the scan of the mount table are lost",
 "If reading /proc/mounts fails after a complete line, or a line has 65536 bytes or more, EnumVolumes succeeds with the lines before that point and drops the rest silently; a read error in the middle of a line is reported.",
 "every content and read error", "Content and error position range over everything.",
 ["plat_linux/volume.go EnumVolumes"],
 "Model of the line scanner; equality of the enumerations.")
prop("C96", "Windows pass-through: one direct request, one buffered retry",
 "Every ATA/SCSI taskfile command and SCSI security command on Windows sends the direct control code once, with a 512-aligned data area of exactly the caller's length; only if that fails, the buffered code once with record and data in one buffer; nothing else. SCSI results are judged by the sense key Windows left in the record of whichever request succeeded; if both fail the second error is returned. For reads the caller's buffer afterwards is the delivered data over the old content (over zeros if an aligned copy was used). An empty buffer panics before any request.",
 "every command, buffer, buffer address and system behaviour", "All replies and addresses.",
 ["plat_win/ata_driver.go doTaskFileCmd", "plat_win/scsi_driver.go doTaskFileCmd scsiSecurityCommand"],
 "Interaction model shared by the three functions; trace theorems.")
prop("C97", "Windows pass-through records carry the caller's command",
 "The records handed to Windows, decoded by offset (ntddscsi.h): ATA registers, direction and 48-bit flags, lengths, timeout, data pointer or offset are those of the call in both requests; the SCSI record announces the CDB and 32 bytes of sense data at offset 60. The security CDB is SECURITY PROTOCOL IN/OUT with protocol, ComID and transfer length. The taskfile CDB has the right registers but protocol 0, no transfer length, no direction and no EXTEND bit, whatever the command.",
 "every taskfile, direction, buffer, timeout, reply to the first request", "Bit layouts over all inputs.",
 ["plat_win/ata_driver.go doTaskFileCmd", "plat_win/ata_types.go", "plat_win/scsi_driver.go doTaskFileCmd scsiSecurityCommand", "plat_win/scsi_types.go", "plat_win/ata_passthu_types.go"],
 "Record layouts as byte images; decoding specification.")
prop("C98", "When the Windows ATA and SCSI drivers accept a drive",
 "The ATA driver accepts exactly if the direct IDENTIFY DEVICE succeeds and the status it leaves shows neither ERR nor DRQ; after a failed direct request it always refuses. The SCSI driver accepts exactly if a request succeeds and leaves sense key 0. The identity is the data delivered over 512 zero bytes. Neither panics.",
 "every system behaviour and buffer placement", "All replies.",
 ["plat_win/ata_driver.go openImpl", "plat_win/scsi_driver.go openImpl"],
 "Corollaries of C96 and C97.")
prop("C99", "Windows miniport: admin commands and what is dropped",
 "An NVMe admin command through the miniport driver with more than 4096 bytes is refused without a request. Otherwise one record goes out with opcode, namespace, dwords 10-15 and the caller's bytes, but always with direction device-to-host, a 40 s timeout, no flags, no dwords 2-3 and no metadata. The completion status and the return code the drive leaves in the record are never looked at: if DeviceIoControl itself succeeds, the call reports success and copies the data area over the caller's memory.",
 "every command, buffer, system behaviour and completion entry", "All replies; in particular all pairs of replies that differ only in the status.",
 ["plat_win/nvme_scsi.go scsiMiniportDoNvmeAdminPassthru", "plat_win/nvme_win_types.go"],
 "Record as byte image, decoded by offset; two-run theorem for the ignored status.")
prop("C100", "Windows miniport: how a drive is opened, and the handle that is never closed",
 "The miniport driver asks the handle for its SCSI address, opens \\\\.\\SCSI<port>: (port in decimal) and sends Identify Controller; it accepts exactly if all three succeed, with the 4096 bytes of the answer as identity. A failed open closes what it opened; a successful one holds a second handle that Close never closes.",
 "every system behaviour and port number", "All replies; a leak is invisible in return values.",
 ["plat_win/nvme_win_driver.go GetScsiPath QueryNvmeIdentity openImpl Close"],
 "Interaction model; trace theorem on handles opened and closed.")
prop("C101", "Windows inbox NVMe driver: identity and log pages",
 "The inbox driver accepts exactly if Windows answers its storage query; the identity is 4096 bytes. A log page is read with one query that names the page and the size but neither the namespace nor the retain flag; an answer whose version and size are not both 48 is an error, otherwise the bytes after the header are returned, exactly as many as requested.",
 "every log page, namespace, flag, size below 4 GiB, system behaviour", "All replies and sizes.",
 ["plat_win/windows_nvme_driver.go QueryNvmeIdentity openImpl NvmeGetLogPage", "plat_win/windows_nvme_types.go"],
 "Query as byte image, decoded by offset.")
prop("C102", "Windows: what a security send hands to the drive",
 "A send through a drive handle on Windows hands the system only zeros, in the first attempt and in every fallback, if the driver is the ATA, the SCSI or the inbox NVMe driver; the caller's buffer is zeroed. With the miniport driver one admin command 81h carries the caller's bytes but is marked device-to-host; more than 4096 bytes are refused.",
 "every buffer, protocol, ComID, driver, system behaviour", "All fallback paths and replies.",
 ["common/drive_handle.go SecurityCommand", "plat_win/scsi_driver.go SecurityCommand", "plat_win/ata_driver.go", "plat_win/windows_nvme_driver.go SecurityCommand", "plat_win/nvme_win_driver.go"],
 "Composition of the handle with the driver models.")
prop("C103", "Windows: what is known of a drive before a driver is tried",
 "Opening a drive on Windows asks for device number, size and partition layout independently: number and size are known exactly if their inquiry succeeded, a layout that cannot be read leaves the drive without partition style. A readable layout must have 48 bytes and list only entries of its own style, otherwise the call panics; the partitions are the completely returned entries among those announced, in order, with start, length and identifiers as stored (GPT identifiers in braces and upper case, the disk identifier in lower case without braces), on the disk of that number.",
 "every reply of Windows, of any length", "All byte strings, including truncated ones.",
 ["plat_win/utils.go ReadBasicInfo readDeviceIoControl", "plat_win/storage_types.go", "plat_win/storage_win_types.go"],
 "Decoder model on bytes; independent layout specification.")
prop("C104", "Windows storage query",
 "ReadStorageQuery asks for the device property and decodes the descriptor returned: vendor, product, revision and serial are the texts at the stored offsets up to their NUL, without spaces at the ends (empty for offset 0 or if no NUL follows). It panics exactly if no bytes come back (or Windows names buffer size 0, or claims more bytes than asked for), or if an offset lies behind the bytes returned.",
 "every reply of Windows", "All offsets and contents.",
 ["plat_win/utils.go ReadStorageQuery readDeviceIoControl readNullTerminatedAscii"],
 "Decoder model; independent text specification.")
prop("C105", "Windows: how an opened drive is described",
 "The drive reports the path, style, partitions, capacity and number learned before; an unknown number is reported as 0, as that of the first disk. With a driver it carries that driver's name, kind, interfaces and identity, and no storage query is made. Without one it is still opened without error, and model, serial, vendor, revision, removable flag and type come from the storage query if that succeeds.",
 "every system behaviour, every driver list", "All replies and driver results.",
 ["plat_win/drive_factory.go OpenByHandle OpenByPath"],
 "Trace theorem over the driver list.")
prop("C106", "Windows: handles of an opened drive",
 "A failed OpenByPath leaves no handle open. A successful one leaves open the device's handle and what the driver keeps (the miniport driver's second handle, nothing for the others). Close closes the device's handle once and nothing else; if no driver accepted the drive it closes nothing, so the device stays open.",
 "every path, system behaviour and driver choice", "A leak is invisible in return values.",
 ["plat_win/drive_factory.go OpenByPath OpenByHandle", "common/drive_handle.go Close"],
 "Trace theorem on handles opened and closed.")
prop("C107", "Windows: enumerating drives",
 "EnumDrives lists the drives of Windows' device list in order. A device without disk interface, with unreadable details or that cannot be opened is left out; the first interface error other than \"no more items\" ends the list without an error. It ends when Windows' list ends; then all listed drives that have a driver are closed once, last first, and the device list is given back. Every handle opened on the way is closed exactly once, except those the drivers keep and those of drives without a driver.",
 "every device list and system behaviour", "Any number of devices, any pattern of failures.",
 ["plat_win/drive_factory.go EnumDrives", "plat_win/setupapi.go"],
 "Inductive specification of the enumeration; refinement, termination and permutation theorems.")
prop("C108", "Windows: enumerating volumes",
 "EnumVolumes lists the volumes of Windows' search in order, ending when the search ends (any failure of the next search ends the list without error; a failure of the first is returned). Each volume carries its name without trailing backslashes, the file system (empty if the inquiry failed), the drive type and, if it can be opened, its extents and the partition at the first one (start and length those of the extent, style and identifiers as Windows reports); a volume that cannot be opened is still listed, without extents. The error mode is set for the duration and the one found is restored.",
 "every set of volumes and system behaviour", "Any number of volumes, any pattern of failures, any buffer contents.",
 ["plat_win/volume.go EnumVolumes readPartitionInfoByVolumeHandle", "plat_win/storage_types.go"],
 "Inductive specification of the search; refinement and termination theorems.")
prop("C109", "Windows: when enumerating volumes panics",
 "EnumVolumes panics only if Windows' list of mount points has no end within 4096 characters, or if a volume announces more than 171 extents (more than the buffer holds); and an enumeration that returns has seen neither.",
 "every system behaviour", "All answers, of any length.",
 ["plat_win/volume.go EnumVolumes"],
 "Panic characterisation over the trace, in both directions.")
prop("C110", "Windows: handles of the volume enumeration",
 "An EnumVolumes that returns has closed every volume it opened, exactly once and last one first, and opened no other device.",
 "every system behaviour", "A leak is invisible in return values.",
 ["plat_win/volume.go EnumVolumes"],
 "Trace theorem on handles opened and closed.")
prop("C111", "Windows: volumes of a drive",
 "GetList returns all volumes in order; FindVolumesByDrive those whose first extent lies on the disk with the drive's number, in order: a volume spanning disks is found from its first disk only. A drive whose number Windows did not tell is given the volumes of disk 0.",
 "every list of volumes, every drive number", "All lists and extents.",
 ["plat_win/volume.go GetList FindVolumesByDrive ToVolumeInfo GetPartitionStyle", "plat_win/drive_factory.go OpenByHandle"],
 "Filter theorem, composed with what an opened drive reports.")
prop("C112", "Windows: opening the drive of a volume or partition",
 "OpenDriveByVolumePath opens \\\\.\\PhysicalDrive<n>, n in decimal, for the disk n of the first extent of the first listed volume with that path (compared up to one trailing backslash), and returns what opening it returns; without such a volume, or if it has no extents, it returns neither a drive nor an error and opens nothing. OpenDriveByPartition opens the physical drive of the partition's disk number.",
 "every list of volumes, path and system behaviour", "All lists and paths.",
 ["plat_win/volume.go OpenDriveByVolumePath OpenDriveByPartition"],
 "Search theorem over the list; the open itself is a parameter.")
prop("C113", "Enumeration of drives: after a panic",
 "If EnumDrives panics (a drive's answer makes its Init panic; on Windows also a detail size that becomes 0), the panic comes from one entry, and all drives opened for earlier entries have been closed, each exactly once and the last first, when it reaches the caller; on Windows the device list is given back too. The drive being opened itself is not closed.",
 "every system behaviour, every drive answer, the panic at any position", "A panic may strike at every entry; what a recovering caller has lost cannot be seen from one run.",
 ["plat_linux/drive_factory.go EnumDrives", "plat_win/drive_factory.go EnumDrives"],
 "Deferred calls as a program combinator that runs them on return and on panic; trace theorem for panicking runs.")
prop("C114", "Windows: the volume enumeration after a panic",
 "If EnumVolumes panics, the search for volumes broke off at one bad answer, and before the panic reaches the caller every volume opened, that one included, is closed exactly once and last first, the search is closed and the error mode restored.",
 "every system behaviour, the panic at any position", "A panic may strike at every volume and in two places.",
 ["plat_win/volume.go EnumVolumes"],
 "Deferred calls as a program combinator; trace theorem for panicking runs.")
prop("C115", "Linux: opening the drive of a partition",
 "For every volume of a successful EnumVolumes that reports a partition, OpenDriveByPartition on it behaves as OpenByPath on the drive its device name belongs to (/dev/…<digit> without p<number>), the drive whose partition table was read; nothing else is opened first.",
 "every mount table, every system behaviour", "All tables and names.",
 ["plat_linux/volume.go OpenDriveByPartition EnumVolumes"],
 "Composition with the partition theorem of the enumeration.")
prop("C116", "Linux: opening and enumerating drives only reads from them",
 "Whatever the system answers, every ioctl that OpenByPath and EnumDrives of the system drive factory send to a drive only reads: NVMe Identify, ATA IDENTIFY DEVICE, or receiving the level 0 discovery data with security protocol 1 and ComID 1 (NVMe Security Receive, SECURITY PROTOCOL IN, TRUSTED RECEIVE); every SG request has data direction from the device, and no NVMe I/O command is sent.",
 "every system and drive behaviour, every number of drives, returning and panicking runs", "The commands depend on what every drive answered before; no finite set of fakes covers all answers.",
 ["plat_linux/drive_factory.go OpenByPath EnumDrives", "plat_linux/nvme_driver.go", "plat_linux/sg_driver.go", "common/drive_handle.go Init TcgDiscovery0"],
 "Factory, handle and both drivers composed into one program over system calls; refinement theorem from that program to the factory model; per-call facts.")
prop("C117", "Linux: what an opened drive is",
 "OpenByPath of the system drive factory opens the node first; if that fails it returns this error and does nothing else; if it succeeds it never returns an error. When it returns a drive, the node was opened once and nothing was closed; one NVMe Identify and one IDENTIFY DEVICE (two if the first did not go through) were sent, to the new descriptor; the drive is an ATA drive with model, serial, firmware, SMART and SSD information from the 512 bytes the drive delivered if IDENTIFY DEVICE was accepted, even if the NVMe Identify was accepted too; otherwise an NVMe drive described by its 4096 identity bytes if that was accepted; otherwise it has no driver.",
 "every system and drive behaviour", "All answers of all calls in between, in all combinations.",
 ["plat_linux/drive_factory.go OpenByPath OpenByFd", "plat_linux/nvme_driver.go OpenByFd", "plat_linux/sg_driver.go OpenByFd", "common/drive_handle.go Init"],
 "Refinement of the composed program; statement in terms of the answers to the identify commands on the wire.")
prop("C118", "Linux: descriptors of opened and enumerated drives",
 "Close on an opened drive closes its descriptor exactly once if a driver accepted the drive and makes no system call otherwise. When EnumDrives returns, each record is what OpenByPath gave for its node at that point, and the descriptors closed are exactly those of the opened drives with a driver, each once, last opened first; drives without a driver keep their descriptor.",
 "every system and drive behaviour, every number of drives", "Leaks and double closes depend on the combination of answers.",
 ["plat_linux/drive_factory.go EnumDrives", "plat_linux/nvme_driver.go Close", "plat_linux/sg_driver.go Close", "common/drive_handle.go Close"],
 "Refinement of the composed program; parts of the upper run are parts of the lower run.")
prop("C119", "Windows: opening and enumerating drives only reads from them",
 "Whatever Windows and the drives answer, every control request that OpenByPath, EnumDrives and EnumVolumes of the Windows drive factory send only reads: inquiries about the device, standard property queries, and pass-through records with direction from the device whose command is ATA IDENTIFY DEVICE, NVMe Identify, or receiving the level 0 discovery data with security protocol 1 and ComID 1. (The protocol field of the ATA pass-through CDBs is 0; only their registers say what is meant, see C97.)",
 "every system and drive behaviour, every number of drives and volumes, returning and panicking runs", "The commands depend on what every drive answered before; no finite set of fakes covers all answers.",
 ["plat_win/drive_factory.go OpenByPath EnumDrives", "plat_win/nvme_win_driver.go", "plat_win/windows_nvme_driver.go", "plat_win/scsi_driver.go", "plat_win/ata_driver.go", "plat_win/volume.go EnumVolumes", "common/drive_handle.go Init TcgDiscovery0"],
 "Invariant over all requests of the program, from the record theorems of the pass-through functions; records decoded by the independent views.")
prop("C120", "Fields of the decoded ATA identity",
 "After Init on an ATA drive with a complete identity block, every one of the 111 fields of AtaIdentity holds the bytes of the word(s) ATA8-ACS assigns to it (integers little-endian); SerialNumber, FirmwareRevision and ModelNumber hold theirs with each byte pair exchanged.",
 "every identity block, every field", "One shifted field moves all after it only for blocks that are not symmetric; a test looks at a few fields of a few drives.",
 ["ata/types.go IdentityDeviceData", "common/drive_handle.go Init", "internal/utils.go"],
 "Table of words in the specification; layout sums checked by kernel computation, record theorem for all blocks.")
prop("C121", "Capability questions on the ATA identity",
 "IsSanitizeFeatureSetSupported, IsOverwriteExtSupported, IsCryptoScrambleExtSupported, IsBlockEraseExtSupported, IsSanitizeAntifreezeLockExtSupported, IsSanitizeOperationStandardCompliant, IsMultiSectorSettingValid, both GetSmartCommands and GetTrim on the record of an initialised drive answer exactly the bits 12, 14, 13, 15, 10, 11 and 8 of word 59, bit 0 of words 82 and 85 and bit 0 of word 169.",
 "every identity block", "All bit patterns of the words, through decoding.",
 ["ata/types.go IdentityWord59 IdentityCommandSetSupport IdentityCommandSetActive IdentityDataSetManagementFeature"],
 "From C120 and bit lemmas.")
prop("C122", "Fields of the decoded NVMe identity",
 "After Init on an NVMe drive with a complete identity block, every field of NvmeIdentity holds the bytes at the offset NVMe 1.4 gives it: the 85 fields below 2048, the 15 fields of each of the 32 power states from 2048, the vendor area from 3072. (Integers of more than one byte are decoded big-endian, see C79.)",
 "every identity block, every field and power state", "All fields of all blocks.",
 ["nvme/types.go IdentifyController IdentifyPowerState", "common/drive_handle.go Init"],
 "Table of offsets in the specification; record theorem for all blocks.")
prop("C123", "Small accessors",
 "The accessors of a sense record read response code, valid bit, sense key, ILI, EOM and filemark where SPC puts them; SetVersion and GetVersion store and read the upper four bits only; NewNestedError joins message and cause with ': ' and keeps the cause, and panics on a nil cause; StorageBusTypeToString gives the table's name and is empty for other values.",
 "all bytes and messages", "All values.",
 ["scsi/types.go SENSE_DATA", "tcg/types.go VersionField", "common/errors.go", "plat_win/storage_types.go StorageBusTypeToString"],
 "Arithmetic specifications; for bytes by kernel computation over all 256 values.")
prop("C124", "TCG on Linux: one NVMe command per security command, on the drive that was opened",
 "Every drive the Linux factory returns is bound to the descriptor opened for its path, by the NVMe driver, by the SCSI generic driver, or by none. On a drive bound by the NVMe driver, every TCG operation (any program of TCG sends, receives, waits) acts, whatever the kernel answers, as a conversation with some drive, and each security command of it is exactly one NVMe admin ioctl on that descriptor: Security Send or Security Receive with the same protocol, ComID, length and buffer; its error is the ioctl's error number or status, its data what the ioctl delivered.",
 "every drive, operation, payload and kernel behaviour", "The layers are tested separately with fakes; the composition over all answers is not.",
 ["tcg/device.go Exec", "tcg/drive_handle.go", "common/drive_handle.go SecurityCommand", "plat_linux/nvme_driver.go", "plat_linux/drive_factory.go OpenByPath"],
 "The TCG programs are interpreted in the handle, the handle in the driver, the driver in system calls; refinement by chunks of the trace.")
prop("C125", "TCG on Linux: RevertTPer and GetDefaultPassword on an NVMe drive, in system calls",
 "On an Opal NVMe drive opened by the factory, RevertTPer sends nothing but Security Send and Security Receive of protocol 1 on the base ComID to that drive; the payloads sent are the StartSession command for the given password (PSID or SID, or anonymous) and then, only after an accepted answer with both session numbers, the Revert call in that session; success is reported only after an accepted answer to it. GetDefaultPassword sends the anonymous StartSession and then at most the Get of the MSID PIN, and returns a password only from an accepted answer to it.",
 "every password, drive and kernel behaviour", "A destructive command: which bytes reach which drive after which answers, over all answers.",
 ["tcg/device_opal.go RevertTPer", "tcg/device.go", "tcg/session.go", "plat_linux/nvme_driver.go"],
 "C124 with the trace theorems of C36-C40 carried over to system calls.")
prop("C126", "TCG on Linux: security commands on a SCSI generic drive or on none",
 "On a drive bound by the SCSI generic driver, each security command of a TCG operation is a SECURITY PROTOCOL OUT or IN command on the drive's descriptor with the same protocol, ComID and buffer, repeated at most once (with the number 128 as data address) when the ioctl fails, and followed by ATA TRUSTED SEND or RECEIVE of the same protocol and ComID only if both failed; nothing else reaches the drive; TRUSTED SEND carries only zeros. RevertTPer and GetDefaultPassword have the guarantees of C125. On a drive without driver a security command is 'not supported' without a system call.",
 "every drive, operation, password and kernel behaviour", "All combinations of failing ioctls and alignment.",
 ["plat_linux/sg_driver.go scsiSecurityCommand doTaskFileCmd", "common/drive_handle.go SecurityCommand", "tcg/device.go", "tcg/device_opal.go"],
 "As C124, with all runs of the driver functions (C57-C61).")
prop("C127", "PSID revert on a conforming drive",
 "On an Opal drive that behaves as TCG Core and Opal prescribe, with a session to spare and answering within 10 s, RevertTPer with the PSID printed on the drive returns nil and leaves the drive in factory state (SID credential = MSID, no sessions, one revert more); with any other password, including none, it returns the TCG error 1 (not authorized) and the drive is neither reverted nor has another credential.",
 "every conforming drive (session numbers, atom forms, padding, repeated 'not ready' answers, header fields left open), PSID, PSID argument up to 400 bytes, history",
 "What a drive does with the transmitted bytes is not visible to tests with recorded answers; all drives and passwords.",
 ["tcg/device_opal.go RevertTPer", "tcg/session.go Start SendCommand", "tcg/command.go", "tcg/response.go", "tcg/device.go Exec"],
 "Reference drive in Spec/Tper.lean that decodes packets by the token grammar; the library's run against it is computed symbolically.")
prop("C128", "SID revert on a conforming drive",
 "On such a drive RevertTPer with a SID password succeeds exactly when the drive's SID credential is the 34 bytes D0 20 followed by the PBKDF2 key of the password's first 32 bytes (the encoded form, header included, is sent as the value); on every other drive, so on each whose credential is the key itself or has a length other than 34 bytes (such as an unowned drive with an MSID of other length), it returns error 1 whatever the password. At any clock, timeouts included: a revert that reports success has taken place with the right password, and with a wrong one the drive is not reverted.",
 "every conforming drive, password (of any length), clock and history", "Same as C127; needs the drive's view of the credential.",
 ["tcg/device_opal.go RevertTPer", "tcg/session.go Start", "tcg/utils.go TcgHashPassword", "tcg/device.go Exec"],
 "Same reference drive.")
prop("C129", "GetDefaultPassword on a conforming drive, and running out of sessions",
 "On such a drive with a session to spare GetDefaultPassword returns the MSID byte for byte and leaves one more session open on the drive; it changes neither credential nor factory state. Of n calls in a row exactly the first (sessions to spare) return the MSID, all later ones fail with TCG error 7 (no sessions available), and then RevertTPer fails with error 7 too, even with the right PSID.",
 "every conforming drive, MSID, number of calls and sessions", "Histories of any length; the state is in the drive.",
 ["tcg/device_opal.go GetDefaultPassword RevertTPer", "tcg/device.go OpalGetTable", "tcg/session.go"],
 "Same reference drive; induction on the number of calls.")
prop("C130", "TCG operations from opening the node on, on a conforming NVMe drive",
 "On Linux, take a descriptor behind which the kernel answers NVMe Security Send and Receive as a conforming Opal drive with base ComID c would (and level 0 discovery with descriptors naming c). If the node opens as that descriptor, NVMe Identify succeeds on it and SG_IO is refused, OpenByPath returns a drive bound to it by the NVMe driver. Whenever it does, NewTcgDevice on it finds an Opal device with base ComID c, opening did not change the drive's TCG state, and from then on at any time, whatever else was asked in between: RevertTPer with the PSID succeeds and leaves factory state, with another password fails with error 1 and reverts nothing; RevertTPer with the SID succeeds exactly when the SID credential is D0 20 and the derived key; GetDefaultPassword returns the MSID while a session is left. Without any assumption on the clock, success is never reported unless the drive is in factory state.",
 "every conforming drive and kernel behaviour otherwise, every path, password (PSIDs up to 400 bytes) and history", "Only the real stack with a real drive runs all layers together, and reverting is destructive.",
 ["plat_linux/drive_factory.go OpenByPath", "plat_linux/nvme_driver.go", "common/drive_handle.go Init TcgDiscovery0 SecurityCommand", "tcg/device.go NewTcgDevice Exec", "tcg/device_opal.go RevertTPer GetDefaultPassword", "tcg/session.go"],
 "Contract of the kernel and drive in Spec/TperLinux.lean; refinement through factory, handle, driver and system calls down to the reference drive of C127-C129.")
prop("C131", "TCG operations from opening the node on, on a conforming drive behind SCSI generic",
 "As C130 for a descriptor on which NVMe ioctls fail and SG_IO executes SECURITY PROTOCOL IN and OUT as a conforming Opal drive with base ComID c would. If the node opens as that descriptor and ATA IDENTIFY DEVICE succeeds on it without sense data, OpenByPath returns a drive bound to it by the SCSI generic driver. Whenever it does, NewTcgDevice on it finds an Opal device with base ComID c, opening did not change the drive's TCG state, and from then on at any time: RevertTPer with the PSID succeeds and leaves factory state, with another password fails with error 1 and reverts nothing; RevertTPer with the SID succeeds exactly when the SID credential is D0 20 and the derived key; GetDefaultPassword returns the MSID while a session is left. Without any assumption on the clock, success is never reported unless the drive is in factory state.",
 "every conforming drive and kernel behaviour otherwise, every path, password (PSIDs up to 400 bytes) and history", "Only the real stack with a real drive runs all layers together, and reverting is destructive.",
 ["plat_linux/drive_factory.go OpenByPath", "plat_linux/sg_driver.go", "common/drive_handle.go Init TcgDiscovery0 SecurityCommand", "tcg/device.go NewTcgDevice Exec", "tcg/device_opal.go RevertTPer GetDefaultPassword", "tcg/session.go"],
 "Contract of the kernel and drive in Spec/TperScsi.lean; refinement through factory, handle, driver and system calls down to the reference drive of C127-C129.")
prop("C132", "ATA commands through an opened Linux drive",
 "AtaDoTaskFileCmd (any registers, direction, DMA flag, timeout; buffer nil or not) on a drive the Linux factory opened. On an NVMe drive or without driver: no system call, error \"not supported in this driver\", registers and buffer untouched. On a SCSI generic drive: an empty non-nil buffer panics before any ioctl; otherwise one SG_IO on that drive's descriptor carries exactly the registers given as ATA PASS-THROUGH (12 bytes, 16 for 48-bit commands), in the direction and for the length of the buffer, with one repetition (data address 128) only if it failed; the error is the second ioctl's if both failed, else decided by the first answer's sense key, the registers returned are those the sense area reports, a read delivers the device's bytes, and a write sends zeros instead of the caller's bytes and zeroes his buffer.",
 "every drive, command, buffer and kernel behaviour", "Needs every register value and ioctl result, and the whole stack.",
 ["common/drive_handle.go AtaDoTaskFileCmd", "plat_linux/sg_driver.go DoTaskFileCmd", "plat_linux/drive_factory.go OpenByPath"],
 "Vocabulary in Spec/HandleSystem.lean; the driver theorem lifted through handle and system calls.")
prop("C133", "Log pages through an opened Linux drive",
 "NvmeGetLogPage on a drive the Linux factory opened. On a SCSI generic drive or without driver: no system call, error \"not supported in this driver\", no bytes. On an NVMe drive (log identifier of 8 bits, size from 4 bytes to 4 GiB): only Get Log Page admin ioctls on that drive's descriptor, each for the namespace, log and retain flag given, at offset 0 and for the whole size, all into one zeroed buffer of that size; each but the last failed, there are at most one per 4096 bytes and exactly that many if none succeeds. The buffer is returned, with the last attempt's error or nil.",
 "every drive, argument and kernel behaviour", "Retry loops of any length over every ioctl result.",
 ["common/drive_handle.go NvmeGetLogPage", "common/nvme/default.go NvmeGetLogPageByAdminPassthru", "plat_linux/nvme_driver.go NvmeGetLogPage"],
 "Induction over the loop; vocabulary in Spec/HandleSystem.lean.")
prop("C134", "What initialising a handle learns about TCG",
 "Init on any handle with a complete identity block, whatever it knew before, sends the level 0 discovery command, nothing else, and returns no error whatever became of it. All raw features known before are forgotten while feature flags stay: if the command failed, no raw feature is known, the flags are the old ones and the support indicator is -1 for \"not supported\", else 0; if the response announces more than 2048 bytes, the same with indicator 1; if a descriptor does not fit, Init panics; otherwise the raw features are exactly the response's descriptors (the last of each code) and a flag is set if it was set before or the response reports its feature.",
 "every handle state, driver and response", "Histories of repeated initialisation.",
 ["common/drive_handle.go Init TcgDiscovery0"],
 "Composition of the identity theorems with the discovery theorems.")
prop("C135", "RevertTPer is blind to the password on Windows",
 "On a drive the Windows factory opened with any driver but the vendor NVMe miniport one (so the ATA, the SCSI and the inbox NVMe driver), RevertTPer does exactly the same whatever password, PSID flag and administrator flag are given: the same requests with the same bytes in the same order and the same result, whatever the system answers. No such revert can therefore depend on the right password.",
 "every opened drive, pair of passwords and options, device state, history and behaviour of Windows", "Equality of two runs for every pair of passwords and every environment; the error is invisible to a test that only checks one run.",
 ["plat_win/scsi_driver.go", "plat_win/ata_driver.go", "plat_win/windows_nvme_driver.go", "plat_win/drive_factory.go OpenByPath", "common/drive_handle.go SecurityCommand", "tcg/device_opal.go RevertTPer", "tcg/session.go"],
 "Relational argument: two runs stay alike as long as requests differ only in the bytes of sends; the Windows drivers turn these into equal requests.")
prop("C136", "What TCG operations ask of Windows",
 "Every drive the Windows factory returns is bound by one of its four drivers to the handle opened for it, or has no driver. RevertTPer and GetDefaultPassword (and every TCG operation) on it make no other requests of Windows than security commands: of protocol 1 and the device's own ComID, in the record type of that driver, on its own handle, for 512 to 61440 bytes in the direction of the command; through every driver but the miniport one each byte sent is 0. On a drive without driver no request reaches Windows.",
 "every opened drive, operation, history and behaviour of Windows", "Holds for every answer of the system along runs of any length.",
 ["plat_win/drive_factory.go OpenByPath", "plat_win/ata_driver.go", "plat_win/scsi_driver.go", "plat_win/nvme_win_driver.go", "plat_win/windows_nvme_driver.go", "common/drive_handle.go SecurityCommand", "tcg/device.go Exec"],
 "Request invariant pushed through handle and driver; vocabulary in Spec/WinTcg.lean.")
prop("C137", "TCG operations through the Windows NVMe miniport driver",
 "On a drive of the vendor NVMe miniport driver a TCG operation behaves as in a conversation with some drive in which each security command of up to 4096 bytes is exactly one miniport request on the adapter's handle (Security Send or Receive with that protocol, ComID and those bytes), whose result and data are the answer; longer ones fail with \"too long data\" without a request. RevertTPer sends the StartSession command with the credential and then, only after an accepted answer with both session numbers, the Revert call in that session, and reports success only after an accepted answer to it; GetDefaultPassword sends an anonymous StartSession and at most the Get of C_PIN_MSID, and returns a password only from an accepted answer to that.",
 "every opened drive, password, history and behaviour of Windows", "Needs every reply of the miniport over protocol runs of any length.",
 ["plat_win/nvme_win_driver.go", "plat_win/nvme_scsi.go", "common/drive_handle.go SecurityCommand", "tcg/device_opal.go RevertTPer GetDefaultPassword", "tcg/session.go", "tcg/device.go Exec"],
 "Refinement of the run to a conversation of the TCG layer, whose theorems then apply; vocabulary in Spec/WinTcg.lean.")
prop("C138", "ATA commands through an opened Windows drive",
 "AtaDoTaskFileCmd (any registers, direction, DMA flag, timeout; buffer nil or not) on a drive the Windows factory opened. On an NVMe drive or without driver: no request, error \"not supported in this driver\", registers and buffer untouched. On a drive of the ATA or SCSI driver: a nil or empty buffer panics before any request; otherwise the taskfile comes back unchanged (no register of the drive reaches the caller), one request carries the registers, direction, length and timeout given, with one repetition only if it failed; the error is the second request's if both failed, else decided by the status byte (ATA) or sense key (SCSI); a read delivers what Windows stored, and a write sends zeros instead of the caller's bytes and zeroes his buffer.",
 "every drive, command, buffer, address and behaviour of Windows", "Needs every register value and result, and the whole stack.",
 ["common/drive_handle.go AtaDoTaskFileCmd", "plat_win/ata_driver.go", "plat_win/scsi_driver.go"],
 "The driver theorems (C71-C74, C97) lifted through the handle; vocabulary in Spec/WinTcg.lean.")
prop("C139", "Log pages through an opened Windows drive",
 "NvmeGetLogPage on a drive the Windows factory opened. On a drive of the ATA or SCSI driver or without driver: no request, error \"not supported in this driver\". Through the miniport driver: no request, error \"not supported\". Through the inbox NVMe driver, for every size up to 4 GiB: one property query on the drive's handle for that log and size, but neither for the namespace nor with the retain flag given; the bytes after its 48-byte header are returned, unless Windows reports an error (that error, no bytes) or the header is not as expected (\"invalid response header\").",
 "every drive, argument and behaviour of Windows", "All sizes and replies.",
 ["common/drive_handle.go NvmeGetLogPage", "plat_win/windows_nvme_driver.go NvmeGetLogPage", "plat_win/nvme_win_driver.go"],
 "The driver theorem lifted through the handle.")
prop("C140", "No descriptor is used after it was closed (Linux)",
 "A client may call OpenByPath, EnumDrives, EnumVolumes, OpenDriveByVolumePath, OpenDriveByPartition and, on any handle it was given, open or closed, Close, GetDrivingType, GetDriverName, AtaDoTaskFileCmd, NvmeGetLogPage, SecurityCommand, TcgDiscovery0, RevertTPer, GetDefaultPassword and the calls on sessions (Start, Authenticate, SendCommand and Exec with commands of the caller's own making, OpalGetTable, EnterpriseGetTable, Close), in any order and number, and recover from panics. Provided the operating system never returns from open a descriptor that is still open, every system call of the library that works on a descriptor or closes it is made while that descriptor is open: nothing is used after closing and nothing is closed twice. At every moment each handle with a driver has a descriptor of its own, which is open and which no other handle has.",
 "every finite sequence of calls, and every behaviour of the system", "All interleavings of calls on any number of handles; a test fixes one history.",
 ["plat_linux/drive_factory.go", "plat_linux/volume.go", "plat_linux/nvme_driver.go", "plat_linux/sg_driver.go", "common/drive_handle.go", "tcg/device_opal.go", "tcg/device_enterprise.go"],
 "A protocol over the set of open descriptors, kept by every call (weakest-precondition rules in Lemmas/Policy.lean), then induction over the calls; vocabulary in Spec/Client.lean.")
prop("C141", "What stays open (Linux)",
 "In any such sequence of calls without EnumVolumes in which the calls that open drives did not panic and every drive they reported was accepted by a driver, the open descriptors are exactly those of the handles the client holds and has not closed: enumerations and failed openings leave nothing open, and Close gives the descriptor back. After closing every handle nothing is open.",
 "every finite sequence of calls, and every behaviour of the system", "As C140.",
 ["plat_linux/drive_factory.go", "plat_linux/nvme_driver.go Close", "plat_linux/sg_driver.go Close", "common/drive_handle.go Close"],
 "The same protocol with an exact account of the open set.")
prop("C142", "A drive nobody accepts costs a descriptor (Linux)",
 "In any such sequence of calls in which no call that opens drives, EnumVolumes apart, panicked, the number of open descriptors is the number of handles with a driver the client holds, plus the number of drives without a driver ever reported, plus the number of devices that calls of EnumVolumes opened: each opening or enumeration of a drive that no driver accepts, and each device EnumVolumes looks at, leaves one descriptor open that no later call, Close included, gives back.",
 "every finite sequence of calls, and every behaviour of the system", "A leak shows only over histories.",
 ["plat_linux/drive_factory.go OpenByPath EnumDrives", "plat_linux/volume.go EnumVolumes", "common/drive_handle.go Close"],
 "Counting along the protocol of C140.")
prop("C143", "No handle is used after it was closed (Windows)",
 "A client may call OpenByPath, EnumDrives, EnumVolumes, OpenDriveByVolumePath, OpenDriveByPartition and, on any handle it was given, open or closed, Close, GetDrivingType, GetDriverName, AtaDoTaskFileCmd, NvmeGetLogPage, SecurityCommand, TcgDiscovery0, RevertTPer, GetDefaultPassword and the calls on sessions (Start, Authenticate, SendCommand and Exec with commands of the caller's own making, OpalGetTable, EnterpriseGetTable, Close), in any order and number, and recover from panics. Provided Windows never hands out a handle that is still open, every call of Windows that works on a device handle, a device information list or a volume search, or gives it back, is made while that is open. At every moment each drive handle with a driver has Windows handles of its own, all open, and no other drive handle has them.",
 "every finite sequence of calls, and every behaviour of Windows", "All interleavings of calls on any number of handles; a test fixes one history.",
 ["plat_win/drive_factory.go", "plat_win/volume.go", "plat_win/utils.go", "plat_win/ata_driver.go", "plat_win/scsi_driver.go", "plat_win/nvme_win_driver.go", "plat_win/windows_nvme_driver.go", "common/drive_handle.go"],
 "As C140, over three kinds of resources; vocabulary in Spec/WinClient.lean.")
prop("C144", "What stays open (Windows)",
 "In any such sequence of calls in which the calls that open drives or volumes returned and every drive they reported was accepted by a driver other than the vendor miniport driver, what is open is exactly the handles of the drive handles the client holds and has not closed; after closing every handle nothing is open.",
 "every finite sequence of calls, and every behaviour of Windows", "As C143.",
 ["plat_win/drive_factory.go", "plat_win/volume.go", "plat_win/ata_driver.go", "plat_win/scsi_driver.go", "plat_win/windows_nvme_driver.go", "common/drive_handle.go Close"],
 "The same protocol with an exact account of the open set.")
prop("C145", "What leaks (Windows)",
 "In any such sequence of calls in which the calls that open drives or volumes returned, every device information list and every volume search is given back, and the number of open handles is the number of drive handles with a driver the client holds, plus one for every drive without a driver and one for every drive of the vendor miniport driver that was ever reported: those handles are never given back, by Close neither.",
 "every finite sequence of calls, and every behaviour of Windows", "A leak shows only over histories.",
 ["plat_win/drive_factory.go OpenByPath EnumDrives", "plat_win/volume.go EnumVolumes", "plat_win/nvme_win_driver.go", "common/drive_handle.go Close"],
 "Counting along the protocol of C143.")
prop("C146", "Goroutines with their own handles do not touch each other's drives",
 "Any number of goroutines that share no handle, each making any sequence of calls of the API, under any schedule of their system calls: every system call that works on a descriptor (Linux) or on a device, volume, device list or search handle (Windows), or closes it, works on one that the same goroutine has obtained and not closed, and that no other goroutine has.",
 "every number of goroutines, every sequence of calls of each, every schedule, and every behaviour of the system that does not hand out what is still open",
 "Schedules cannot be enumerated by tests, and descriptors are reused: a close one call too late would hit another goroutine's drive only under rare interleavings.",
 ["plat_linux/drive_factory.go", "plat_linux/nvme_driver.go", "plat_linux/sg_driver.go", "plat_win/drive_factory.go", "plat_win/volume.go", "common/drive_handle.go"],
 "Pool of programs, one system call per step; invariant over all schedules that combines the handle protocols of C140 and C143 of the goroutines.")
prop("C147", "Goroutines do not influence each other",
 "Under any schedule, what a goroutine does and obtains is what it would do and obtain alone on a system that gives the same answers: the same system calls in the same order, the same results, the same handles. No schedule can keep a goroutine from ending: given enough steps it ends.",
 "every number of goroutines, every sequence of calls of each, every schedule, and every behaviour of the system that does not hand out what is still open", "As C146.",
 ["plat_linux/drive_factory.go", "plat_win/drive_factory.go", "common/drive_handle.go"],
 "The exchanges of the goroutine replayed to the sequential program.")
prop("C148", "What stays open when goroutines have ended",
 "When all goroutines have ended and the calls that open drives went well (as in C141 and C144), what is open in the process is exactly the handles of the drive handles that the goroutines hold and have not closed, each held by one goroutine only.",
 "every number of goroutines, every sequence of calls of each, every schedule, and every behaviour of the system that does not hand out what is still open", "As C146.",
 ["plat_linux/drive_factory.go", "plat_win/drive_factory.go", "common/drive_handle.go Close"],
 "C141 and C144 through C147, and disjointness from C146.")
prop("C149", "The error mode of the process (Windows)",
 "EnumVolumes changes the error mode of the whole process while it runs; no other call does. A client alone: when its calls have ended, also with errors or panics, the error mode is what it was before. Goroutines, at any time under any schedule: the error mode is the one before or SEM_FAILCRITICALERRORS; if only one goroutine enumerates volumes and it has ended, the mode is the one before, whatever the others do. Two goroutines that enumerate volumes at the same time can leave the process with SEM_FAILCRITICALERRORS, on every Windows.",
 "every sequence of calls, every number of goroutines and every schedule, on every Windows whose SetErrorMode returns the mode before",
 "The deferred restore runs on every way out, and whether it restores the right mode depends on the schedule.",
 ["plat_win/volume.go EnumVolumes"],
 "Changes of the mode come in pairs along a client; invariant over schedules; the race by an explicit schedule in which both goroutines change the mode before one restores it.")
prop("C150", "Who can revert a drive that several clients use at once",
 "Any number of goroutines (or programs), each making any sequence of RevertTPer and GetDefaultPassword calls on one conforming Opal drive, under any schedule of their exchanges with the drive and stopped at any point: if nobody calls RevertTPer with a right password and no session of SID or PSID was open before, then at every moment the drive was not reverted and its password is unchanged. In any case at every moment the drive has its old password and was not reverted, or it has its MSID and was reverted, at most once per call of RevertTPer; and never more sessions are open than it allows or had at the start.",
 "every conforming drive, every number of goroutines, every sequence of calls of each (any password, PSIDs of up to 400 bytes), every schedule and every point at which they stop",
 "A drive has one place for the answer to a ComID and the library takes no lock: goroutines get each other's answers and continue each other's sessions. Interleavings cannot be enumerated by tests.",
 ["tcg/device.go Exec", "tcg/session.go Start SendCommand", "tcg/device_opal.go revertTPer getDefaultPassword", "tcg/device_enterprise.go RevertTPer GetDefaultPassword"],
 "Pool of programs on the drive of C127; every request is a StartSession with the caller's credentials, a Get of the MSID or a Revert with arbitrary session numbers, and each RevertTPer makes at most one Revert; invariant over schedules with the number of Reverts left.")
prop("C151", "RevertTPer and GetDefaultPassword are truthful when they are not disturbed",
 "After anything any goroutines did, also if they were stopped in the middle: when a goroutine calls RevertTPer and nobody else uses the drive until it returns, it returns nil only if the password was right and the drive is now in factory state; with a wrong password it returns an error and the drive keeps its password and was not reverted; with a right password it returns nil if the drive has a session left and nothing takes longer than 10 s. In the same way GetDefaultPassword returns the MSID if the drive has a session left and otherwise an error, and changes neither password nor factory state.",
 "every conforming drive, every history before the call, every password and every PSID of up to 400 bytes", "As C150: what earlier goroutines left in the drive (an answer nobody fetched, open sessions) is unbounded.",
 ["tcg/device.go Exec", "tcg/session.go Start SendCommand", "tcg/device_opal.go revertTPer"],
 "C127 from an arbitrary state of the drive; a goroutine alone runs as its sequential program.")
prop("C152", "TCG operations are not safe for concurrent use on one drive (limit)",
 "There are schedules of two goroutines on a conforming drive in which RevertTPer with a wrong password returns nil although the drive was never reverted, and schedules in which RevertTPer with a wrong password reverts the drive, in the session another goroutine has opened with the right password but not yet used, and schedules in which GetDefaultPassword returns, without error, the number of another goroutine's session in place of the MSID. Callers have to serialise.",
 "existence, for the three kinds of failure", "The schedules are rare and need the right timing.",
 ["tcg/device.go Exec", "tcg/session.go Start", "tcg/device_opal.go revertTPer"],
 "Explicit schedules on a drive with room for three sessions, evaluated in the kernel.")
prop("C153", "Any history of calls on one session object",
 "A TcgSession can be used for any sequence of Start, Authenticate, SendCommand, Close, NoAutoClose, SetTimeout, SetNoHashPassword and IsNoHashPassword calls. SetTimeout, NoAutoClose and Close have no effect: leaving them out changes neither the conversation with the drive nor any result. The credential a Start or Authenticate sends is hashed unless the last SetNoHashPassword turned that off, and IsNoHashPassword tells which. Before the first Start everything is sent with session numbers 0 and 0; after a Start that returned nil, and until the next Start is answered, everything (also a second Start) is sent with the two numbers of its reply.",
 "every device, every history of calls, every behaviour of the drive and the clock", "The state of the object is the result of an unbounded history of calls and replies.",
 ["tcg/session.go NewTcgSession Start Authenticate SendCommand Close SetNoHashPassword IsNoHashPassword NoAutoClose SetTimeout"],
 "Calls as programs over the drive, histories as their composition; simulation between histories with and without the settings; invariants on the object along a history.")
prop("C154", "A session object is good for one session (limit)",
 "On a conforming Opal drive where nothing takes longer than 10 s, every history of Start calls (Admin SP), reads of the MSID, Close and settings on one new session object opens at most one session. The Starts before it fail and change nothing on the drive; after the one that returned nil, every further Start on the same object fails with TCG status 12, also with the right password and also after Close, because it is sent inside the old session, while reads of the MSID succeed. When that session has ended on the drive (after a Revert), no call on the object has any effect on the drive. Callers need a new object for every session.",
 "every conforming drive and device, every history of such calls, every password of up to 400 bytes", "The failing case needs a drive that checks session numbers and a second Start on the same object; histories are unbounded.",
 ["tcg/session.go Start SendCommand Close"],
 "Conforming drive of C127; invariant: the object has numbers 0 and 0, or those of an open session; a StartSession in an open session is refused by the drive.")
prop("C155", "Calls that only look write to no drive (Linux)",
 "In any sequence of calls a client makes (as in C140: all orders, closed handles, recovered panics), every call other than AtaDoTaskFileCmd, SecurityCommand, RevertTPer, GetDefaultPassword and the calls on sessions makes system calls only, and each one that reaches a drive reads: NVMe Identify, Get Log Page or Security Receive of protocol 1 for ComID 1, or, through the SCSI generic driver, IDENTIFY DEVICE, TRUSTED RECEIVE or SECURITY PROTOCOL IN of protocol 1 for ComID 1 with the transfer from the device. So a client that makes no other calls writes to no drive.",
 "every finite sequence of calls, and every behaviour of the system", "A write could hide behind any state of the handles and any answer of the system.",
 ["common/drive_handle.go", "plat_linux/drive_factory.go", "plat_linux/volume.go", "plat_linux/nvme_driver.go", "plat_linux/sg_driver.go"],
 "An invariant of the handles a client holds (the driver of a handle is one of the two, on its descriptor), C116 for the programs of the factory, and the requests of the methods; vocabulary in Spec/Looking.lean.")
prop("C156", "The development tool (Linux)",
 "However it ends, the tool cmd/develop only reads from drives. It crashes whenever /dev/nvme0n1 cannot be opened, and returns if that works and the stages before return. When it returns, its last system call on a drive of the NVMe driver was one Get Log Page for the SMART log of all namespaces, of 129 dwords into a 516-byte buffer (unsafe.Sizeof counts padding; the log has 512 bytes), and it shows that buffer and the error; on other drives it shows the error \"not supported in this driver\". It closes nothing: open at its end are /dev/sda if it could be opened, /dev/nvme0n1, one descriptor for every enumerated drive without driver and one for every device EnumVolumes opened.",
 "every mount table and every behaviour of the system", "The tool runs on whatever system it finds.",
 ["cmd/develop/main_linux.go main", "nvme/types.go SmartLogPage", "plat_linux/drive_factory.go OpenByPath"],
 "The run cut into its five stages; C155's lemmas, C133 and C142 for the stages.")
prop("C157", "Calls that only look write to no drive (Windows)",
 "In any sequence of calls a client makes on Windows (as in C143), every call other than AtaDoTaskFileCmd, SecurityCommand, RevertTPer, GetDefaultPassword and the calls on sessions makes Windows calls only, and every control request among them reads: an inquiry, a property query with query type 0, an ATA or SCSI pass-through that transfers from the device with IDENTIFY DEVICE, TRUSTED RECEIVE or SECURITY PROTOCOL IN of protocol 1 for ComID 1, or a miniport request with Identify or Security Receive. EnumVolumes, and no other of these calls, changes the process's error mode. So a client that makes no other calls writes to no drive.",
 "every finite sequence of calls, and every behaviour of Windows", "As C155.",
 ["common/drive_handle.go", "plat_win/drive_factory.go", "plat_win/volume.go", "plat_win/windows_nvme_driver.go NvmeGetLogPage", "plat_win/nvme_win_driver.go", "plat_win/scsi_driver.go", "plat_win/ata_driver.go"],
 "As C155, with C119 for the factory; a property query of any size, also one over 4 GiB whose length wraps around, has query type 0.")
prop("C158", "The development tool (Windows)",
 "However it ends, the tool cmd/develop only reads from drives (and changes the process's error mode). It needs no drive: where nothing can be opened or enumerated it returns after five calls of Windows. When it returns, the error mode is what it was, device lists and searches are given back, and nothing is closed of what it opened itself: open are the drive it opened, if it could, every enumerated drive without driver, and the second handle of every drive of the miniport driver.",
 "every behaviour of Windows", "The tool runs on whatever system it finds.",
 ["cmd/develop/main.go main", "plat_win/drive_factory.go OpenByPath EnumDrives", "plat_win/volume.go EnumVolumes"],
 "The tool is a client with three calls; C145, C149 and the lemmas of C157.")
prop("C159", "Without the password, nothing the API offers moves the drive (Linux)",
 "Any number of goroutines make any calls of the API in any order (opening, enumerating, closing, task files, log pages, SecurityCommand, TCG operations, sessions; closed handles and recovered panics included), and may stop anywhere. If no packet the caller makes itself, sent by SecurityCommand or through a session, is a StartSession for the drive's ComID that presents the PSID as PSID or the SID credential as SID, and RevertTPer is called only with wrong passwords (as PSID: not the PSID; as SID: the derived key is not the SID credential), however long, and no session of SID or PSID was open at the start, then the drive is not reverted, its SID credential is not changed and no session of SID or PSID is opened. The drive may lose or refuse packets; AtaDoTaskFileCmd with a TRUSTED SEND command is harmless only because the driver overwrites the data with zeros (C58).",
 "every number of goroutines, every call sequence, schedule and stopping point, every behaviour of the system and the drive's transport, every password of any length", "Guards against unbounded histories and all interleavings; a unit test sees one drive and one sequence.",
 ["common/drive_handle.go", "tcg/session.go Start SendCommand Authenticate", "tcg/device_opal.go RevertTPer", "tcg/device_enterprise.go", "plat_linux/sg_driver.go", "plat_linux/nvme_driver.go"],
 "A drive observed through the history of system calls (Spec/Protected.lean): each call leaves it or hands it a packet it performs as the reference drive. Every packet the library sends is shown to parse, for any password, as nothing, as a StartSession with the presented credential, or as a method a session without authority may not use; induction over the schedule.")
prop("C160", "Without the password, nothing the API offers moves the drive (Windows)",
 "C159 on Windows, with the calls of C143: any number of goroutines, any calls, schedules and answers of Windows. If no packet the caller makes itself (shorter than 4 GiB) presents the PSID or the SID credential to the drive, RevertTPer is called only with wrong passwords and no session of SID or PSID was open at the start, then the drive is not reverted, its SID credential is not changed and no session of SID or PSID is opened. (Through every driver but the miniport one nothing but zeros is sent at all, C73.)",
 "every number of goroutines, every call sequence, schedule and stopping point, every behaviour of Windows and the drive's transport, every password of any length", "As C159.",
 ["common/drive_handle.go", "tcg/session.go Start SendCommand", "tcg/device_opal.go RevertTPer", "plat_win/nvme_win_driver.go", "plat_win/windows_nvme_driver.go", "plat_win/scsi_driver.go", "plat_win/ata_driver.go"],
 "As C159, with the requests to Windows decoded by offset (Spec/WinProtected.lean); C73 and C97 for pass-through requests, C99 for the miniport.")
prop("C161", "Partitions through the Partition interface",
 "For every partition of a volume that EnumVolumes reported, on both platforms, and of an opened drive on Windows: GetMbrInfo is non-nil exactly if GetPartitionStyle is MBR, GetGptInfo exactly if it is GPT, and its two identifiers are in braces and without small letters. A volume has at most one partition. On Linux the style is never raw, and GetSize equals GetStart (C91); on Windows start and size are those of the volume's first extent, and the partitions of a drive all have the style of the drive, which is then not raw.",
 "every mount table, partition table, volume and behaviour of the system", "The system and the partition table are arbitrary.",
 ["common/types.go Partition", "plat_linux/volume.go GetStart GetSize GetPartitionStyle GetMbrInfo GetGptInfo", "plat_win/volume.go GetStart GetSize GetPartitionStyle GetMbrInfo GetGptInfo", "plat_win/utils.go ReadBasicInfo"],
 "Consequences of C91, C103, C105 and C108 for the five accessors (Model/Partition.lean).")
prop("C162", "What can crash a program on Linux",
 "After any calls, whatever the system and the drives answer, a call of the API panics only for one of these reasons: opening, enumerating or TcgDiscovery0 meets a drive whose discovery data announces at most 2048 bytes but whose descriptors run over the announced end; EnumVolumes meets a mounted partition with number 0 on a drive with a partition table; GetDrivingType or GetDriverName of a handle without driver (closed, or no driver accepted the drive); AtaDoTaskFileCmd or SecurityCommand with a buffer of no bytes (not nil) on a SCSI generic drive, before anything is sent; RevertTPer, GetDefaultPassword, Start, Authenticate, SendCommand, OpalGetTable or EnterpriseGetTable for an Opal device whose last answer from the drive is too short. Close never panics, nor NvmeGetLogPage with a size that is not negative, nor Close of a session, nor Exec. For the methods of a handle the reasons are exact. Every call other than RevertTPer, GetDefaultPassword and those on sessions ends.",
 "every sequence of calls, every behaviour of system and drives", "Absence of panics ranges over all call histories and all answers.",
 ["common/drive_handle.go", "plat_linux/drive_factory.go", "plat_linux/volume.go", "plat_linux/sg_driver.go", "plat_linux/nvme_driver.go", "tcg/session.go", "tcg/device_opal.go"],
 "Per call: a program logic with the exchanges of a panic as postcondition (Lemmas/Crash.lean: Sane), over the composed model down to system calls; induction over the calls for the shape of held handles; C27, C29, C93 and C124-C126 for the TCG operations and volumes.")

prop("C163", "What can crash a client on Windows",
 "After whatever sequence of library calls on Windows, and whatever Windows and the drives answer, a further call panics only for a reason of a closed list that names the answer or argument at fault: an open (by path, volume or partition, or within the enumeration, which still closes what it opened) panics only on a partition layout or storage descriptor that cannot be fetched, is too short, mixes styles or has an offset behind its end, or on malformed discovery data; the enumeration also on a device detail size that is 0 when rounded up; enumerating volumes only on a mount point text without end or more than 171 extents; GetDrivingType and GetDriverName exactly on a handle without driver; an ATA command exactly with nil or empty data on a drive of an ATA-capable driver; SecurityCommand exactly with an empty buffer on a driver other than the miniport one; reading discovery data again exactly when the data read is malformed; RevertTPer, GetDefaultPassword and the calls on sessions only on Opal devices after an accepted answer of the drive, read with a TCG request, that is too short. Close, NvmeGetLogPage, Close of a session and Exec never panic. Every call but EnumDrives, EnumVolumes, RevertTPer, GetDefaultPassword and those on sessions ends.",
 "every sequence of calls, every behaviour of Windows and drives, every address of buffers", "Absence of panics ranges over all call histories and all answers.",
 ["common/drive_handle.go", "plat_win/drive_factory.go", "plat_win/volume.go", "plat_win/scsi_driver.go", "plat_win/ata_driver.go", "plat_win/nvme_win_driver.go", "plat_win/windows_nvme_driver.go", "tcg/session.go", "tcg/device_opal.go"],
 "As C162: the program logic Sane over the composed model down to DeviceIoControl (Lemmas/WinCrash.lean); induction over the calls for the shape of held handles; C27, C29, C107-C109 for the TCG operations and enumerations.")

prop("C164", "Every call ends within a known number of system calls (Linux)",
 "On a system whose clock does not run backwards and whose sleeps last as long as asked, every call of the Linux API, on whatever handles and after whatever history, comes to an end, and makes at most: to open a drive 17 system calls and one for each name listed in /dev/disk/by-id; to enumerate drives 1, 19 for each name in /sys/block and one for each name listed in /dev/disk/by-id; to enumerate volumes 6 for each line of the mount table; Close 1; GetDrivingType and GetDriverName none; AtaDoTaskFileCmd 2; NvmeGetLogPage one per 4096 bytes begun; SecurityCommand and TcgDiscovery0 4; RevertTPer and GetDefaultPassword 2 exchanges of at most 403 security commands; a call on a session one such exchange, Close of a session none. A program comes to the end of any sequence of calls, and its system calls add up to at most the sum.",
 "every system with a clock, every behaviour of drives, every handle, history and sequence of calls", "Termination and cost range over all answers of the system and drives, which decide how long polling goes on.",
 ["plat_linux/drive_factory.go", "plat_linux/volume.go", "plat_linux/sg_driver.go", "plat_linux/nvme_driver.go", "common/drive_handle.go", "common/nvme/default.go", "tcg/device.go Exec", "tcg/session.go"],
 "An amortized cost logic over program trees (Lemmas/Cost.lean: Pays; listings bring in what they cost), composed through the layers (Lemmas/Budget.lean); for polling, an induction over the rounds with the clock as variant (Lemmas/Clockwork.lean).")

prop("C165", "Every call ends within a known number of API calls (Windows)",
 "On a Windows whose clock does not run backwards and whose sleeps last as long as asked, with at most n disks and n volumes, every call of the Windows API of the library, on whatever handles and after whatever history, comes to an end, and makes at most: to open a drive 16 calls of the Windows API; to enumerate drives 3 + 21 n; to enumerate volumes 4 + 8 n; Close 1; GetDrivingType and GetDriverName none; AtaDoTaskFileCmd 2; NvmeGetLogPage 1; SecurityCommand and TcgDiscovery0 4; RevertTPer and GetDefaultPassword 2 exchanges of at most 403 security commands; a call on a session one such exchange, Close of a session none. A program comes to the end of any sequence of calls, and its API calls add up to at most the sum.",
 "every such Windows, every behaviour of drives, every handle, history, sequence of calls, and n", "Termination and cost range over all answers of Windows and drives, which decide how long polling and enumerations go on.",
 ["plat_win/drive_factory.go", "plat_win/volume.go", "plat_win/utils.go", "plat_win/scsi_driver.go", "plat_win/ata_driver.go", "plat_win/nvme_win_driver.go", "plat_win/windows_nvme_driver.go", "common/drive_handle.go", "tcg/device.go Exec", "tcg/session.go"],
 "The cost logic of C164 (Lemmas/WinBudget.lean) and inductions over the rounds of the enumerations, with the number of devices and volumes left as variant.")

prop("C166", "Reading a table asks for exactly the range named",
 "OpalGetTable on an Opal device, with any session, table UID and pair of column numbers, sends exactly one command, to the drive the session belongs to (whatever device the method is called on), which a drive reads as Get of exactly that table and exactly those columns under the session's numbers; EnterpriseGetTable likewise with non-empty column names that fit into the packet. What is returned is the drive's accepted answer as parsed; otherwise an error, or a panic on an accepted message too short for a status. Generic and Enterprise devices refuse OpalGetTable, and nothing is ever sent in a session of a device that is not Opal. On a conforming drive, in an open session, the PIN column of C_PIN_MSID can be read (the fifth token of the answer is the drive's MSID), every other range is refused with the drive's status, and the drive is left as it was.",
 "every device, session, table UID, column range and drive behaviour; every conforming drive", "All tables, columns and drive answers.",
 ["tcg/device_opal.go opalGetTable", "tcg/device_enterprise.go EnterpriseGetTable", "tcg/device.go OpalGetTable", "tcg/session.go SendCommand"],
 "The encoder against the token grammar, then the packet reader of the reference drive (Spec/Tper.lean) applied to the wire image; C27 for the outcome; the step of the reference drive for the conforming case.")

prop("C167", "Guessing in sessions moves nothing",
 "A caller without the key uses the ready-made session calls: Start for any SP with a UID as authority and any challenge that is not, as presented (raw, or as derived key), the PSID for PSID or the SID credential for SID; Authenticate with any authority below 20000 bytes and any challenge; OpalGetTable and EnterpriseGetTable of any table UID; Close; and SendCommand and Exec with commands of its own for other ComIDs or protocols. Whatever state the session objects are in and whatever the drive answers, no packet sent is one a drive reads as StartSession with its key. So with C159 and C160: any number of goroutines that make such calls, and whatever other calls of the API (SecurityCommand not with protocol 1 to the drive's ComID, RevertTPer with wrong passwords), under any schedule, do not revert the drive, change its SID credential or get a session of SID or PSID.",
 "every device, session state, SP, authority, challenge and answer; every number of goroutines, call sequence, schedule and behaviour of the system, on Linux and Windows", "All challenges, authorities and answers; all interleavings.",
 ["tcg/session.go Start", "tcg/session.go Authenticate", "tcg/session.go SendCommand", "tcg/device.go Exec", "tcg/device_opal.go opalGetTable", "tcg/device_enterprise.go EnterpriseGetTable"],
 "The wire image of each call read by the packet reader of the reference drive: its first tokens are the invoking UID and the method; for Start also the credentials, in the three cases fitting, cut off and challenge omitted. Then C159 and C160.")

prop("C168", "Sessions on a conforming drive, from opening it on",
 "On a conforming Opal drive where nothing takes longer than 10 s, Start of the Admin SP on a new session object, with any password and authority UID: while the drive has a session left it returns nil exactly if nothing is presented (empty password), or what is presented (the password itself, or the derived key) is the PSID under the PSID authority, or the SID credential under the SID authority; then exactly one session was opened, writing, for that authority, and the object speaks in it. Otherwise TCG error 1 (7 if no session is left) and the drive is unchanged. In an open session OpalGetTable of the PIN column of C_PIN_MSID returns the MSID and every other range is refused, and a Revert command the caller builds and sends resets the drive exactly in a session of SID or PSID, otherwise TCG error 1 and the drive is unchanged. All this, and C154, holds on Linux from opening the node on, over the NVMe driver and over the SCSI generic driver, at any later time.",
 "every conforming drive, password (up to 400 bytes if presented raw), authority, table, column range, history and session", "All passwords, drive states, histories and system behaviours outside the drive.",
 ["tcg/session.go Start", "tcg/session.go SendCommand", "tcg/device_opal.go opalGetTable", "plat_linux/drive_factory.go OpenByPath", "plat_linux/nvme_driver.go", "plat_linux/sg_driver.go"],
 "start_conforming and send_fetched of the reference drive; opened drives by the simulation of C130 and C131: an operation on an opened drive is a run on the reference drive.")

prop("C169", "SMART data through an opened drive",
 "ReadSmart on a drive the Linux or Windows factory opened, for any timeout and any system: on an NVMe drive and on a drive without driver it returns the error \"not supported in this driver\" without any request. On a SCSI generic drive (Linux) and on a drive of the ATA or SCSI driver (Windows) it sends SMART READ DATA (B0h/D0h, one sector, key 4Fh/C2h) as one ATA command as C132/C138 say, and only if that succeeded SMART READ THRESHOLDS (D1h); the first error is returned and nothing else is sent after it; otherwise the 30 attribute values are those of the first sector and the 30 thresholds those of the second. It never panics. If the drive answers both commands with success, ReadSmart succeeds after exactly two requests with exactly the attributes in the drive's two sectors.",
 "every opened drive of every kind, timeout, system behaviour and history; every pair of sectors", "All sectors and all behaviours of the system at every request.",
 ["ata_util/utils.go ReadSmart", "common/drive_handle.go AtaDoTaskFileCmd", "plat_linux/sg_driver.go", "plat_win/ata_driver.go", "plat_win/scsi_driver.go"],
 "ReadSmart as two commands over any interpretation of a handle (readSmart_on), the commands by C132 and C138, the sectors by C81.")

prop("C170", "The records the Linux drivers hand the kernel, byte for byte",
 "The memory the library hands to its ioctls on Linux is what the kernel's own C records say: read by include/uapi/linux/nvme_ioctl.h, with the record size in the ioctl number, the 72 bytes of an admin or I/O command are exactly the caller's command and buffer address (and, for I/O commands, a data length 0), and the 48 bytes of DoNvmeIo are exactly the caller's request; read by include/scsi/sg.h, every round of an ATA or SCSI security command is interface 'S', no scatter list, no flags, the direction, CDB, data memory, length, timeout and pack id C132 speaks of, and a sense buffer inside the same record, so that whatever status, sense bytes and other output fields the kernel writes there, after the first and after the second round, the library reads back exactly status and sense data.",
 "every command, buffer, address of record, CDB, slice header and buffers, timeout, answer of the kernel and content of the other output fields", "All field values, addresses and kernel answers; the layout is compiled from Go struct definitions.",
 ["plat_linux/nvme_driver.go DoNvmeAdminPassthru", "plat_linux/nvme_driver.go DoNvmeIoPassthru", "plat_linux/nvme_driver.go DoNvmeIo", "plat_linux/nvme_types.go", "plat_linux/nvme_ioctl.go", "plat_linux/sg_driver.go doTaskFileCmd", "plat_linux/sg_driver.go scsiSecurityCommand", "plat_linux/sg_types.go"],
 "A second model of the same functions on bytes (Model/Records.lean): the assignments in order at the offsets of the Go struct; a kernel that reads the C record (Spec/Records.lean) turns it into the model of C64, C65 and C132, equal as programs.")

prop("C171", "What a recovered panic leaves behind",
 "A caller recovers from a panic of TcgDiscovery0, Start, Authenticate, SendCommand or Close and looks at the object. Under recover every one of these sends and returns exactly what it does otherwise, with the same object. Where discovery panics because a descriptor does not fit into the buffer, the handle reports TCG support, exactly the flags it had or the complete descriptors before that one report, for each of their codes the complete last descriptor, and is otherwise as before, so it can be used on; on a handle without a table of raw features exactly the flag of the first descriptor is left and no raw feature. Where a call on a session panics, the session object is exactly as it was before the call: in particular Start never leaves one new session number beside an old one by a panic.",
 "every handle, response and number of descriptors before the overrun; every session state, device, call and behaviour of the drive", "All responses and all points of the code at which it can panic.",
 ["common/drive_handle.go TcgDiscovery0", "tcg/session.go Start", "tcg/session.go Authenticate", "tcg/session.go SendCommand", "tcg/session.go Close"],
 "A second model of the calls that returns the object at the panic (Model/Recover.lean), compared with the model without recover: the walk by induction on the bytes left, Start by the shape of parsed tokens (C22), which do not let the number conversions panic.")

prop("C172", "A session object used on after recovered panics",
 "Any sequence of calls is made on a new session object, each under recover, whatever the drive answers. The sequence does not end in a panic. As long as every Start panicked, everything sent carries the session numbers 0 and 0; after a Start that returned nil everything sent carries the two numbers of its reply, until another Start returns, whatever panics in between. A Start or Authenticate sends one packet, with the password unhashed exactly if the last SetNoHashPassword, panics or not, turned hashing off, and IsNoHashPassword tells.",
 "every sequence of calls of any length, device, behaviour of the drive and position of the panics", "All histories and all drive behaviours.",
 ["tcg/session.go Start", "tcg/session.go Authenticate", "tcg/session.go SendCommand", "tcg/session.go Close", "tcg/session.go SetNoHashPassword", "tcg/session.go IsNoHashPassword"],
 "Induction on the history with C171 at each call and C153 at the calls that return.")

prop("C173", "Texts between Go and Windows",
 "A text that Windows delivers (device paths, volume names, drive letters, file systems) arrives as its UTF-8, up to the NUL that ends it; a text given to Windows, in UTF-8 without NUL, is seen there as its UTF-16, and a text with a NUL is refused. A text received and given back is the same text, character for character, and two different texts stay different. So EnumDrives opens each device under exactly the name its detail record has, and OpenDriveByVolumePath of a name EnumVolumes listed, with or without a backslash, is about the first volume Windows listed under that name, and no other. The exception: unpaired surrogates, which NTFS names may contain, are replaced by Go versions before 1.21; from 1.21 on the statements hold for them, too.",
 "every text of 16-bit characters of any length, both Go behaviours, every device and every list of volumes", "All texts; the encodings have four forms and surrogates.",
 ["plat_win/utils.go OpenDevice", "plat_win/drive_factory.go EnumDrives", "plat_win/volume.go EnumVolumes", "plat_win/volume.go OpenDriveByVolumePath"],
 "Go's conversions are functions on bytes and 16-bit characters (Model/Utf16.lean), the specification is UTF-8 and UTF-16 by arithmetic; induction on the text by scalar values and unpaired surrogates, and C107, C109, C112 for the calls.")

prop("C174", "TCG operations on a conforming drive through the Windows miniport driver",
 "The reference drive of C127 behind the SCSI miniport of Windows: the factory's miniport driver drives it, and it was recognised as an Opal device with the drive's own ComID. RevertTPer with the PSID succeeds exactly if the password is the drive's PSID, with the SID exactly if the drive's SID credential is the hash of the non-empty password; after success the drive is in factory state, after failure (TCG error 1) credential and content are unchanged. However slow the drive and however many sessions are open, success is only reported in factory state with the right password, and a wrong password never reverts it. GetDefaultPassword returns the MSID while a session is left, and uses one up for good. Every packet the drive has to understand fits into the 4096 bytes a miniport request carries.",
 "every conforming drive, history, password, device state and number of open sessions", "All drives and histories; the outcome depends on the drive's state across system calls.",
 ["plat_win/nvme_win_driver.go", "tcg/device_opal.go RevertTPer", "tcg/device_opal.go GetDefaultPassword", "tcg/session.go Start", "tcg/command.go"],
 "C99 and C137 for the single requests; a drive behind the driver is a conforming drive for the TCG layer (Spec/Tper.lean asks nothing of sends above 4096 bytes: a packet that can be read was sent in 512 bytes, Lemmas/WireShort.lean), then C127 to C129.")

prop("C175", "TCG operations from opening the path on, on a conforming drive behind the Windows miniport",
 "As C130 on Windows: take an adapter on which the SCSI miniport answers NVMe Security Send and Receive as a conforming Opal drive with base ComID c would, and level 0 discovery with descriptors naming c. If the path opens as a disk at that adapter (whatever port number Windows names), its drive layout is refused or complete with entries of the table's own style, and the miniport executes Identify, then whatever the rest of the system answers OpenByPath returns a drive of the miniport driver on the adapter's handle. Whenever it returns one, NewTcgDevice on it finds an Opal device with base ComID c, opening did not change the drive's TCG state, and from then on, at any time and whatever else was asked in between: RevertTPer with the PSID succeeds and leaves factory state, with another password fails with error 1 and reverts nothing; RevertTPer with the SID succeeds exactly when the SID credential is D0 20 and the key derived from the non-empty password and the opened drive's serial; GetDefaultPassword returns the MSID while a session is left, then error 7. Without any assumption on the clock, success is never reported unless the drive is in factory state and the password was right.",
 "every conforming drive and behaviour of Windows otherwise, every path, password (PSIDs up to 400 bytes) and history", "Only the real stack on Windows with a real drive runs all layers together, and reverting is destructive.",
 ["plat_win/drive_factory.go OpenByPath", "plat_win/nvme_win_driver.go", "plat_win/utils.go ReadBasicInfo", "common/drive_handle.go Init TcgDiscovery0 SecurityCommand", "tcg/device.go NewTcgDevice Exec", "tcg/device_opal.go RevertTPer GetDefaultPassword", "tcg/session.go"],
 "Contract in Spec/TperWin.lean; opening by C100, C103 and C105, discovery through the miniport record of C99 and the handle of C134, opening reads only (C119), then C174.")

prop("C176", "Sessions on a conforming drive behind the Windows miniport, from opening it on",
 "As C168 on Windows: on a drive the Windows factory opened, at some time and under some path, on a conforming Opal drive behind the miniport driver, where nothing takes longer than 10 s, at any later time: Start of the Admin SP on a new session object, with any password and authority UID, while the drive has a session left returns nil exactly if nothing is presented (empty password), or what is presented is the PSID under the PSID authority, or the SID credential under the SID authority; then exactly one session was opened, writing, for that authority, and the object speaks in it. Otherwise TCG error 1 (7 if no session is left) and the drive is unchanged. In an open session OpalGetTable of the PIN column of C_PIN_MSID returns the MSID and every other range is refused; a Revert command the caller sends resets the drive exactly in a session of SID or PSID, otherwise TCG error 1 and the drive is unchanged; and any history of calls on one session object opens at most one session, after which every further Start fails (C154).",
 "every conforming drive, password (up to 400 bytes if presented raw), authority, table, column range, history and session", "All passwords, drive states, histories and system behaviours outside the drive.",
 ["tcg/session.go Start", "tcg/session.go SendCommand", "tcg/device_opal.go opalGetTable", "plat_win/drive_factory.go OpenByPath", "plat_win/nvme_win_driver.go"],
 "start_conforming and send_fetched of the reference drive; opened drives by the simulation of C175: an operation on an opened drive is a run on the reference drive.")

prop("C177", "Any history of operations on a conforming drive",
 "On a conforming Opal drive where nothing takes longer than 10 s, any sequence of RevertTPer and GetDefaultPassword calls, with any passwords, returns call by call what a ledger of three numbers says (SID credential, open sessions, reverts), and leaves the drive as it says: with no session left every call returns TCG error 7; a revert with the right password returns nil, sets the credential to the MSID and frees all sessions; with a wrong one it returns error 1 and costs nothing, with an empty one error 1 and a session for good; GetDefaultPassword returns the MSID and costs a session. If the program is stopped after any exchange (on a drive that a fetch without a waiting answer does not change), credential and number of reverts are what the ledger says after some number of the calls. So the drive was reverted exactly as often as RevertTPer returned nil, and once it is in factory state with an MSID not of 34 bytes, no history without the PSID reverts it again, though the MSID is then its SID credential. The ledger also holds on Linux and Windows from opening on, over the NVMe, SCSI generic and Windows miniport drivers.",
 "every conforming drive, initial state, sequence of calls of any length, passwords (PSIDs up to 400 bytes) and point at which the program is stopped", "All sequences of calls and all points to stop at; the outcome of each call depends on all before.",
 ["tcg/device_opal.go RevertTPer", "tcg/device_opal.go GetDefaultPassword", "tcg/session.go Start", "tcg/session.go Close"],
 "The ledger is a ten line function (Spec/TperHistory.lean); simulation by induction on the sequence, with the outcome of one call from C127 to C129 and the number of sessions it leaves open; opened drives by the simulations of C168 and C176.")
