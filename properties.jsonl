{"id": "C01", "title": "Number tokens survive the wire", "statement": "For every 64-bit value v, the bytes AddNumberToken(v) appends to a command are one atom: a single byte when v < 64, otherwise 0x81/0x82/0x84/0x88 followed by 1/2/4/8 big-endian bytes, the shortest of those that fits. When such an atom arrives in a response, the parser yields exactly one token for it and GetUint64 on that token returns v without error.", "quantifier": "every uint64 value", "why_tests_cant": "A unit test checks a handful of values; the claim ranges over 2^64 values and four width classes with boundaries.", "anchors": ["tcg/command.go AddNumberToken", "tcg/token.go GetUint64", "tcg/response.go Commit"]}
{"id": "C02", "title": "Byte-string tokens of 1 to 2047 bytes survive the wire", "statement": "For every string of 1 to 2047 bytes, AddStringToken appends one byte-string atom (short form below 16 bytes, medium form from 16) whose length field is the string's length, and when it arrives in a response GetString and GetBytes on the resulting token return exactly the original bytes.", "quantifier": "every byte string of length 1..2047", "why_tests_cant": "A unit test checks a handful of values; the claim ranges over all contents and all lengths across the short/medium boundary.", "anchors": ["tcg/command.go AddStringToken", "tcg/token.go GetString GetBytes"]}
{"id": "C03", "title": "Byte-string tokens outside 1..2047 bytes do not survive, and no error is reported", "statement": "AddStringToken(\"\") appends the atom A1 00, which decodes to a one-byte string holding NUL, not to the empty string. For every string of 2048 bytes or more AddStringToken appends nothing at all and still returns a nil error. With an explicit length argument that differs from the text's length, the header announces the argument and the payload is still the whole text.", "quantifier": "every byte string, every explicit length argument", "why_tests_cant": "The silent-loss region is unbounded; a test shows one instance only.", "anchors": ["tcg/command.go AddStringToken"]}
{"id": "C04", "title": "A command buffer holds exactly the tokens added, in order", "statement": "After Init and any sequence of AddToken/AddRawToken/AddStringToken/AddNumberToken calls whose total size fits the buffer and none of which adds an empty raw token, the command buffer contains a zero header of 56 bytes followed by the concatenation, in call order, of each call's own encoding, and every call returned nil. (AddRawToken of an empty slice returns io.EOF and changes nothing.)", "quantifier": "every finite sequence of add calls that fits", "why_tests_cant": "Interactions between arbitrarily many appends (overlap, loss, reordering) cannot be enumerated.", "anchors": ["tcg/command.go Init AddToken AddRawToken AddStringToken AddNumberToken", "internal/aligned_buffer.go Write WriteByte"]}
{"id": "C05", "title": "A full command buffer truncates silently but never writes out of bounds", "statement": "For every sequence of add calls, without any size limit, no byte outside the 61440-byte command window changes, the write position never passes 61440, and no call panics; a non-empty write that does not fit entirely stores the prefix that fits and still reports success (the token is cut), and only a write at position 61440 exactly reports EOF.", "quantifier": "every finite sequence of add calls of any size", "why_tests_cant": "Overflow at every position and every mix of calls; memory safety outside the window cannot be sampled.", "anchors": ["internal/aligned_buffer.go Write WriteByte", "tcg/command.go AddRawToken"]}
{"id": "C06", "title": "Finished commands carry consistent length fields", "statement": "For every command whose payload plus trailer fits, after Complete the sub-packet length equals the number of token bytes (trailer F9 F0 00 00 00 F1 included unless it was suppressed), the packet length is that plus 12 rounded up with the padding to a multiple of 4, the com-packet length is the packet length plus 24, padding bytes are zero, all other header bytes and all token bytes are unchanged, and all three are big-endian at offsets 52, 40 and 16.", "quantifier": "every payload that fits, with and without trailer", "why_tests_cant": "Every residue modulo 4 and every size; nested length consistency is a relation, not a value.", "anchors": ["tcg/command.go Complete", "tcg/types.go OpalHeader"]}
{"id": "C07", "title": "Our own parser reads back our own commands", "statement": "For every sequence of add calls made of well-formed single tokens that fits a response buffer, parsing the finished command bytes yields exactly the sequence of token encodings followed by the trailer tokens F9 F0 00 00 00 F1.", "quantifier": "every finite token sequence that fits", "why_tests_cant": "Unbounded sequences; framing bugs depend on combinations of token widths.", "anchors": ["tcg/command.go", "tcg/response.go Commit"]}
{"id": "C08", "title": "Only the first 512 bytes of a command are transmitted", "statement": "GetCmdSize is always a multiple of 512 and at least the write position; after Complete succeeded it is 512 whatever the command's length, so the buffer handed to the drive is the first 512 bytes: a finished command of at most 512 bytes is transmitted entirely (zero padded), a longer one loses every byte from offset 512 on.", "quantifier": "every finished command", "why_tests_cant": "Needs a command longer than 512 bytes and a look at what reaches the drive, for every content.", "anchors": ["tcg/command.go GetCmdSize Complete", "tcg/device.go Exec"]}
{"id": "C09", "title": "Stamping a command touches only its header fields", "statement": "SetComId, SetTSN and SetHSN change only bytes 4..7, 20..23 and 24..27 of the command respectively; they commute with one another and never change a token byte. The ComID is stored big-endian in the first two of its four bytes with zeros after.", "quantifier": "every command buffer and every value", "why_tests_cant": "Frame conditions quantify over all other bytes.", "anchors": ["tcg/command.go SetComId SetTSN SetHSN"]}
{"id": "C10", "title": "Response parsing always terminates and rejects exactly over-long sub-packets", "statement": "For every 2048-byte response, parsing terminates; it returns an error exactly when 56 plus the announced sub-packet length exceeds 2048, and then leaves the token list from before untouched; otherwise it succeeds.", "quantifier": "every response buffer (2^16384 contents) and every 32-bit length", "why_tests_cant": "Termination over all inputs and the exact acceptance boundary.", "anchors": ["tcg/response.go Commit"]}
{"id": "C11", "title": "Parsed tokens tile the payload", "statement": "When parsing succeeds, the tokens together with the skipped empty atoms (single byte FF) cover the payload from offset 56 contiguously, in order, without gap or overlap, up to or past the announced end; no token is empty, none begins at or past the end, and only the last one can extend past it.", "quantifier": "every response buffer", "why_tests_cant": "Tiling is a property of all token boundaries at once.", "anchors": ["tcg/response.go Commit"]}
{"id": "C12", "title": "Token bytes stay inside the payload exactly when the last token is complete", "statement": "If the payload is a concatenation of complete tokens, every token lies inside the announced payload, so nothing outside the received sub-packet is ever exposed. If the last atom announces more bytes than remain, the token handed to the caller includes bytes beyond the announced end, and beyond the 2048-byte buffer for suitable responses; its content then depends on memory that the drive never sent.", "quantifier": "every response buffer and every content of the adjacent memory", "why_tests_cant": "Needs hostile responses and reasoning about memory after the buffer.", "anchors": ["tcg/response.go Commit"]}
{"id": "C13", "title": "The parser inverts the token grammar", "statement": "For every list of tokens of the TCG grammar (tiny, short, medium, long atoms and control tokens) whose encoding fits, parsing a response carrying that encoding returns exactly these tokens in order, with empty atoms removed.", "quantifier": "every finite list of grammar tokens that fits", "why_tests_cant": "Unbounded lists and all four atom widths.", "anchors": ["tcg/response.go Commit"]}
{"id": "C14", "title": "Token lookup is total for non-negative indexes", "statement": "GetToken(i) returns nil exactly when i is at least the token count, the i-th token for 0 <= i < count, and panics exactly for negative i.", "quantifier": "every token list and every int index", "why_tests_cant": "All indexes, including the negative ones the library itself produces.", "anchors": ["tcg/response.go GetToken GetTokenCount"]}
{"id": "C15", "title": "Token classification is total, and tiny atoms are classified with the wrong sign", "statement": "For every token whose first byte is b, Type is byte-string, signed or unsigned for atoms according to b's flag bits, and b itself for control tokens F0..FF. For short, medium and long atoms the flags follow the TCG encoding. For tiny atoms the sign is inverted: Type says signed for exactly those bytes whose value GetUint64 returns as unsigned, and says unsigned for exactly those that GetUint64 rejects as signed.", "quantifier": "all 256 first bytes and all token tails", "why_tests_cant": "A table over the whole first byte combined with arbitrary tails.", "anchors": ["tcg/token.go Type GetUint64"]}
{"id": "C16", "title": "Numeric accessors: exact value, exact rejections, silent truncation", "statement": "GetUint64 returns the low six bits for unsigned tiny atoms; for short atoms without the sign bit (byte strings included) the big-endian value of the payload modulo 2^64; and an error for signed tiny or short atoms, medium atoms, long atoms and control tokens. GetUint32/16/8 return the same value modulo 2^32/2^16/2^8 with the same error.", "quantifier": "every token of any length", "why_tests_cant": "A unit test checks a handful of values; the claim ranges over all payloads, and payloads above 8 bytes wrap.", "anchors": ["tcg/token.go GetUint64 GetUint32 GetUint16 GetUint8"]}
{"id": "C17", "title": "Accessors never panic on parsed tokens", "statement": "For every response, on every token the parser returned, Type, GetUint64, GetString and GetBytes do not panic; GetString and GetBytes return the same bytes, namely the token without its 1/2/4-byte header, an error for tiny atoms and an empty result with nil error for control tokens.", "quantifier": "every response buffer and every token in it", "why_tests_cant": "Safety over all hostile responses.", "anchors": ["tcg/token.go", "tcg/response.go Commit"]}
{"id": "C18", "title": "SendCommand succeeds exactly on a success status (or end of session)", "statement": "SendCommand returns a nil error exactly when the exchange succeeded, the three length fields of the response are non-zero, at least one token was parsed, and either the first token is ENDOFSESSION or there are at least five tokens, the last is ENDLIST, the fifth from the end is STARTLIST and the fourth from the end is an unsigned number whose low byte is 0. A non-zero low byte yields a TCG error carrying exactly that status.", "quantifier": "every device behaviour and response", "why_tests_cant": "All responses of an adversarial drive.", "anchors": ["tcg/session.go SendCommand"]}
{"id": "C19", "title": "SendCommand panics exactly on short responses", "statement": "SendCommand panics exactly when the exchange succeeded, the length fields are non-zero and the response has one to four tokens of which the first is not ENDOFSESSION; no other response panics.", "quantifier": "every device behaviour and response", "why_tests_cant": "Absence of panics elsewhere is universal.", "anchors": ["tcg/session.go SendCommand", "tcg/response.go GetToken"]}
{"id": "C20", "title": "Every session command carries the session numbers and the device's ComID", "statement": "For every session and every command, the bytes handed to the drive have the session's host and TPer session numbers in bytes 24..27 and 20..23, the device's base ComID big-endian in bytes 4..5 followed by two zero bytes, and the security command itself uses security protocol 1 and the same ComID.", "quantifier": "every session state, device and command", "why_tests_cant": "Relates all commands in all session states.", "anchors": ["tcg/session.go SendCommand", "tcg/device.go Exec", "tcg/command.go"]}
{"id": "C21", "title": "Session numbers are echoed exactly as the drive assigned them", "statement": "After Start returned without error on a non-enterprise device and the drive's reply carried host session number h and TPer session number t (as unsigned atoms, modulo 2^32), every later command of that session carries h and t as big-endian 32-bit values in its packet header.", "quantifier": "every h, t, challenge, authority of at most 50000 bytes, and every later command", "why_tests_cant": "The double byte swap through native memory must cancel for every value.", "anchors": ["tcg/session.go Start SendCommand"]}
{"id": "C22", "title": "Opening a session sends exactly the StartSession call for the requested SP", "statement": "On a non-enterprise SSC device Start sends exactly one command: a CALL of method StartSession on the session manager with a list of the number 105, the SP's UID, the number 1, and, only when a challenge was given, two named values: 0 with the challenge and 3 with the signing authority. Its session numbers are those of the session before the call (zero for a fresh session).", "quantifier": "every SP, every challenge and every authority of at most 50000 bytes", "why_tests_cant": "All credential contents and lengths.", "anchors": ["tcg/session.go Start"]}
{"id": "C23", "title": "Which credential bytes leave the host", "statement": "With hashing disabled the challenge value on the wire is the challenge's own bytes. With hashing enabled it is the 34-byte string D0 20 followed by the 32-byte derived key (the atom header is included in the value, so the drive sees a 34-byte challenge), and the command does not otherwise depend on the challenge. With an empty challenge neither challenge nor authority appears.", "quantifier": "every challenge, authority and key-derivation function", "why_tests_cant": "Secrecy-style dependence over all passwords.", "anchors": ["tcg/session.go Start Authenticate", "tcg/utils.go TcgHashPassword"]}
{"id": "C24", "title": "Password hashing ignores everything past 32 bytes", "statement": "TcgHashPassword depends only on the first 32 bytes of the password and on the drive serial: any two passwords that agree on their first 32 bytes produce the same credential; the unhashed form is D0, the truncated length, and at most 32 bytes of the password.", "quantifier": "every pair of passwords", "why_tests_cant": "Quantifies over pairs of inputs.", "anchors": ["tcg/utils.go TcgHashPassword"]}
{"id": "C25", "title": "Closing a session never talks to the drive", "statement": "In every history of session operations, Close performs no I/O, because no operation ever marks a session as open; sessions opened on the drive are never closed by the library.", "quantifier": "every finite history of session operations and every device", "why_tests_cant": "Invariant over unbounded histories.", "anchors": ["tcg/session.go Close Start"]}
{"id": "C26", "title": "RevertTPer issues the revert only after authentication succeeded", "statement": "For every device behaviour, RevertTPer on an Opal drive sends at most two commands; the first is StartSession on the Admin SP with the given password and authority SID (or PSID), and the Revert call on the Admin SP is sent only if the first exchange returned a success status and both session numbers were readable. If starting the session fails, nothing destructive is sent and the same error is returned.", "quantifier": "every device behaviour, password and flag", "why_tests_cant": "A safety claim over all adversarial responses.", "anchors": ["tcg/device_opal.go revertTPer"]}
{"id": "C27", "title": "RevertTPer reports success only if the drive reported success twice", "statement": "If RevertTPer returns nil, then the drive answered both StartSession and Revert with accepted responses (status 0 or end-of-session).", "quantifier": "every device behaviour", "why_tests_cant": "Universal over responses; a test cannot show the absence of a false success.", "anchors": ["tcg/device_opal.go revertTPer", "tcg/session.go SendCommand"]}
{"id": "C28", "title": "PSID reverts are unhashed, SID reverts are hashed", "statement": "RevertTPer with the PSID flag uses the PSID authority and sends the password bytes unhashed; without the flag it uses the SID authority and sends only the derived key; the isAdminSp argument never changes what an Opal drive receives.", "quantifier": "every password and flag combination", "why_tests_cant": "All passwords; which of two secrets leaves the host.", "anchors": ["tcg/device_opal.go revertTPer RevertTPer"]}
{"id": "C29", "title": "Reading the default password sends no secret and returns the drive's string verbatim", "statement": "GetDefaultPassword on an Opal drive opens an anonymous session on the Admin SP and issues one Get on C_PIN_MSID restricted to the PIN column; when it succeeds the result is the payload of the fifth token of the reply, and it errors if there is no such token.", "quantifier": "every device behaviour", "why_tests_cant": "All responses.", "anchors": ["tcg/device_opal.go getDefaultPassword opalGetTable"]}
{"id": "C30", "title": "Enterprise and generic devices never receive a command", "statement": "On an Enterprise device and on a generic device, RevertTPer, GetDefaultPassword, session Start, Authenticate and SendCommand perform no I/O at all and fail with \"not supported\"; the Enterprise code paths are unreachable.", "quantifier": "every sequence of such operations", "why_tests_cant": "Universal over operations and arguments.", "anchors": ["tcg/device_enterprise.go", "tcg/device.go Exec IsAnySSC"]}
{"id": "C31", "title": "One send, then receives, all on the same protocol and ComID", "statement": "For every device behaviour, Exec on an SSC device performs exactly one security send carrying the command's transmitted bytes, then (if the send succeeded) at least one security receive of 2048 bytes, and nothing else; all use the given protocol and the device's base ComID with a 5 second timeout.", "quantifier": "every device behaviour", "why_tests_cant": "All interleavings of replies.", "anchors": ["tcg/device.go Exec"]}
{"id": "C32", "title": "Polling continues exactly while the drive says more is pending", "statement": "Exec polls again exactly when the last receive succeeded, the timeout had not expired and the response has a non-zero outstanding count and zero minimum transfer; the response it parses is the last one received, into a buffer that was zeroed beforehand, so no byte of an earlier response survives.", "quantifier": "every sequence of drive responses", "why_tests_cant": "Unbounded polling sequences.", "anchors": ["tcg/device.go Exec", "tcg/response.go Reset"]}
{"id": "C33", "title": "Polling is bounded in time", "statement": "If each 25 ms sleep advances the clock by at least 25 ms, Exec performs at most 402 receives and returns; when the clock passed 10 seconds before a receive, that receive's data is discarded with error \"timeout\". Any send or receive error is returned unchanged at once.", "quantifier": "every device behaviour and every clock satisfying the sleep assumption", "why_tests_cant": "Termination over infinite response streams.", "anchors": ["tcg/device.go Exec"]}
{"id": "C34", "title": "Device kind selection", "statement": "NewTcgDevice chooses Opal 1 if the drive advertises SSC V1.00, else Opal 2 if V2.00, else Enterprise, else generic; never fails; and depends only on the discovery information and serial at that moment.", "quantifier": "every discovery record", "why_tests_cant": "All flag combinations, and independence from later changes.", "anchors": ["tcg/device.go NewTcgDevice", "tcg/drive_handle.go NewTcgDriveHandle"]}
{"id": "C35", "title": "Lock-state queries report exactly the locking descriptor's bits", "statement": "IsLockingEnabled, IsLocked, IsMediaEncryption, IsMBREnabled and IsMBRDone return bits 1, 2, 3, 4 and 5 of byte 4 of the last locking descriptor (of at least five bytes) found by discovery, and false whenever discovery did not report locking; for a locking descriptor without body they report the byte that happens to follow it.", "quantifier": "every discovery response", "why_tests_cant": "All descriptor contents through discovery.", "anchors": ["tcg/device.go IsLocked IsLockingEnabled IsMBREnabled IsMBRDone IsMediaEncryption"]}
{"id": "C36", "title": "Base ComID and ComID count come from the SSC descriptor", "statement": "GetBaseComId and GetNumComIds return the big-endian 16-bit values at bytes 4 and 6 of the last descriptor (of at least eight bytes) for the device's own SSC, and 0 for a generic device.", "quantifier": "every discovery response and device kind", "why_tests_cant": "All descriptor contents.", "anchors": ["tcg/device_opal.go GetBaseComId GetNumComIds", "tcg/device_enterprise.go"]}
{"id": "C37", "title": "Discovery terminates and panics exactly on an overrunning descriptor", "statement": "For every 2048-byte discovery response, TcgDiscovery0 terminates; it reports \"length overflow\" exactly when the announced length exceeds 2048; it panics exactly when some visited descriptor's announced size runs past 2048; otherwise it returns nil.", "quantifier": "every discovery response", "why_tests_cant": "Termination and panic-freedom over all responses.", "anchors": ["common/drive_handle.go TcgDiscovery0"]}
{"id": "C38", "title": "Feature flags mirror the descriptors", "statement": "After a successful discovery on a fresh handle, each of the eight feature flags is true exactly when the walk visited a descriptor with that feature's code.", "quantifier": "every discovery response", "why_tests_cant": "All descriptor sequences.", "anchors": ["common/drive_handle.go TcgDiscovery0"]}
{"id": "C39", "title": "The raw feature table keeps the last descriptor of each code, complete", "statement": "After a successful discovery on a fresh handle, the raw feature for code c is present exactly when a descriptor with code c was visited and is then the full descriptor (header included, length byte plus 4 bytes) of the last such descriptor.", "quantifier": "every discovery response and every code", "why_tests_cant": "All sequences with duplicates.", "anchors": ["common/drive_handle.go TcgDiscovery0"]}
{"id": "C40", "title": "Starting the walk at byte 32 instead of 48 is harmless for compliant drives", "statement": "The walk starts at offset 32 although the specification's header has 48 bytes. If bytes 32..47 are zero, the walk visits four empty descriptors of code 0 and then continues at 48, so flags and raw features other than code 0 are those of a walk from 48; with non-zero vendor bytes there it misreads them as descriptors.", "quantifier": "every response whose vendor area is zero; every response", "why_tests_cant": "Equivalence over all compliant responses.", "anchors": ["common/drive_handle.go TcgDiscovery0", "tcg/types.go Discovery0Header"]}
{"id": "C41", "title": "TCG support indicator", "statement": "Discovery sets the support indicator to -1 exactly when the security command failed with \"not supported\", to 0 when it failed with any other error, and to 1 whenever it succeeded (even if the response is then rejected); on failure no flag and no raw feature changes.", "quantifier": "every driver error and response", "why_tests_cant": "All error values.", "anchors": ["common/drive_handle.go TcgDiscovery0"]}
{"id": "C42", "title": "Rediscovery never forgets", "statement": "Across any sequence of discoveries on one handle, a feature flag once set stays set, and a raw feature once present stays present; so a feature the drive no longer reports is still reported.", "quantifier": "every sequence of responses", "why_tests_cant": "Unbounded histories.", "anchors": ["common/drive_handle.go TcgDiscovery0"]}
{"id": "C43", "title": "Typed descriptor decoders: which can succeed", "statement": "On the 16-byte feature union ToBasic, ToOpalSscV100, ToSingleUserMode and ToDataStoreTable always succeed with every field the big-endian number at its offset in the TCG descriptor and GetVersion the high nibble; ToTper, ToLocking, ToGeometry, ToOpalSscV200 and ToEnterpriseSSC fail for every content, since their records are longer than the union.", "quantifier": "every 16-byte content", "why_tests_cant": "A unit test checks a handful of values; the claim ranges over 2^128 contents.", "anchors": ["tcg/types.go Discovery0FeatureUnion"]}
{"id": "C44", "title": "Security commands: driver first, one fallback at most", "statement": "DriveHandle.SecurityCommand first asks the driver; on success it stops. On failure an ATA driver gets exactly one taskfile command and an NVMe driver exactly one admin command, whose result is the final result; any other driver's error is returned as is. After Close it fails with \"not supported\" without I/O.", "quantifier": "every driver behaviour and argument", "why_tests_cant": "All driver replies.", "anchors": ["common/drive_handle.go SecurityCommand"]}
{"id": "C45", "title": "ATA trusted send/receive registers", "statement": "The ATA fallback uses opcode 5E/5F for sending (PIO/DMA) and 5C/5D for receiving, the security protocol in the feature register, the ComID little-endian across LBA mid/high, and the buffer length in 512-byte blocks modulo 256 in the sector count: the count matches the buffer exactly for multiples of 512 below 131072, and is wrong otherwise.", "quantifier": "every protocol, ComID, buffer length", "why_tests_cant": "All lengths including wrap-around.", "anchors": ["common/drive_handle.go SecurityCommand", "ata/types.go"]}
{"id": "C46", "title": "NVMe security send/receive encoding is faithful", "statement": "The NVMe fallback uses opcode 81h to send and 82h to receive, with protocol, ComID and length recoverable from CDW10 bits 31..24, 23..8 and CDW11, for every protocol and ComID and every length below 2^32.", "quantifier": "every protocol, ComID, length", "why_tests_cant": "Bit-field disjointness over all values.", "anchors": ["common/drive_handle.go SecurityCommand"]}
{"id": "C47", "title": "Close is idempotent and final", "statement": "In any sequence of operations on a drive handle the driver is closed at most once, and after Close no operation reaches the driver: SecurityCommand and discovery fail with \"not supported\", taskfile and log-page calls with \"not supported in this driver\", while GetDrivingType and GetDriverName panic.", "quantifier": "every finite history of operations", "why_tests_cant": "Histories are unbounded.", "anchors": ["common/drive_handle.go Close"]}
{"id": "C48", "title": "Identity strings are trimmed, word-swapped copies of the identity data", "statement": "After Init on an ATA drive, model (bytes 54..93), firmware (46..53) and serial (20..39) are the identity bytes with each pair swapped and with all leading and trailing space, tab, CR, LF and NUL removed; the raw serial is the swapped, untrimmed 20 bytes. On NVMe they are bytes 24..63, 64..71 and 4..23 unswapped.", "quantifier": "every identity block", "why_tests_cant": "All 512-byte and 4096-byte contents.", "anchors": ["common/drive_handle.go Init", "ata/types.go IdentityDeviceData", "nvme/types.go IdentifyController"]}
{"id": "C49", "title": "SMART and SSD flags", "statement": "On ATA, SMART is reported enabled exactly when bit 0 of word 82 and bit 0 of word 85 are set; the SSD weight is 1 for form factor 5 plus 1 for rotation rate 0 or 1, and the drive counts as SSD exactly when the weight is positive. On NVMe both flags are true.", "quantifier": "every identity block", "why_tests_cant": "All identity contents.", "anchors": ["common/drive_handle.go Init", "ata/types.go"]}
{"id": "C50", "title": "Init succeeds whenever the identity block is complete", "statement": "Init never panics and returns nil for every driver whose identity has at least 512 (ATA) or 4096 (NVMe) bytes, whatever the drive answers to discovery unless a descriptor overruns; with a shorter identity it returns an error, leaves the handle without discovery, and still records the identity bytes as they came.", "quantifier": "every identity block and drive answer", "why_tests_cant": "All contents and lengths.", "anchors": ["common/drive_handle.go Init"]}
{"id": "C51", "title": "Aligned buffers are aligned and in bounds", "statement": "For every allocation address, every alignment of at least 1 and every size, the buffer's data pointer is a multiple of the alignment and the size bytes from it lie inside the allocation.", "quantifier": "every address, alignment, size", "why_tests_cant": "Addresses are chosen by the runtime.", "anchors": ["internal/aligned_buffer.go NewAlignedBuffer IsAlignedPointer"]}
{"id": "C52", "title": "Buffers behave as a fixed-size array with two cursors", "statement": "Every sequence of Write, WriteByte, Read, Reset, ResetRead, ResetWrite and in-range position and limit changes on an AlignedBuffer returns the same results and data as a plain byte array with a read and a write cursor; reads after writes return the written bytes; nothing outside the window changes. A WrappedBuffer does the same on its slice, and as long as its limit is not raised above the slice's length it neither touches nor looks at what lies between length and capacity.", "quantifier": "every finite operation history", "why_tests_cant": "Unbounded histories.", "anchors": ["internal/aligned_buffer.go", "internal/wrapped_buffer.go"]}
{"id": "C53", "title": "ATA byte swapping", "statement": "AtaSwapWordEndian swaps the two bytes of each word for every even length, is its own inverse, and panics exactly for odd lengths, leaving all whole words swapped and the last byte as it was; AtaSwap16 and AtaSwap32 reverse byte order and are involutions.", "quantifier": "every byte slice; every 16/32-bit value", "why_tests_cant": "All contents and lengths.", "anchors": ["internal/utils.go"]}
{"id": "C54", "title": "FixAtaStringOrder", "statement": "For even lengths FixAtaStringOrder returns the word-swapped bytes up to (not including) the first NUL of the swapped data, with trailing spaces removed exactly when asked; it does not modify its input; on odd lengths it panics exactly if no NUL was met before the last byte.", "quantifier": "every byte slice", "why_tests_cant": "All contents, all NUL positions.", "anchors": ["ata_util/utils.go FixAtaStringOrder"]}
{"id": "C55", "title": "LBA48 decision", "statement": "IsNeedsLba48 is true for the ten EXT/DSM opcodes, false for the four fixed opcodes, and for any other opcode true exactly when the sector count exceeds 255, or the start sector or the last sector of the transfer is at least 2^28 - 1; no arithmetic wrap-around occurs in that decision.", "quantifier": "every opcode, 64-bit LBA, sector count", "why_tests_cant": "A unit test checks a handful of values; the claim ranges over 2^64 x 2^64 pairs with boundaries.", "anchors": ["ata_util/utils.go IsNeedsLba48"]}
{"id": "C56", "title": "TfInit has no effect for its caller", "statement": "TfInit takes the taskfile by value, so for every argument the caller's taskfile is unchanged; the registers it computes locally would decode (by the Linux driver's address computation) to the LBA modulo 2^48 when LBA48 is used and otherwise to the LBA modulo 2^28, which is the LBA itself unless the opcode is one of the four fixed 28-bit ones.", "quantifier": "every taskfile, opcode, LBA, count", "why_tests_cant": "All values.", "anchors": ["ata_util/utils.go TfInit", "plat_linux/sg_driver.go tfToLba"]}
{"id": "C57", "title": "SG taskfile CDBs are faithful", "statement": "For every taskfile the CDB sent to the kernel is ATA PASS-THROUGH(16) with the EXTEND bit if LBA48 is set and (12) otherwise, and all registers used by the respective form can be read back from it; protocol, transfer-length, byte-block, direction and check-condition fields match the data presence, direction and DMA flag.", "quantifier": "every taskfile, direction, data presence", "why_tests_cant": "All register values.", "anchors": ["plat_linux/sg_driver.go doTaskFileCmd", "plat_linux/types_ata_passthu.go"]}
{"id": "C58", "title": "Linux taskfile writes always send zeros", "statement": "For every write (rw) with data, the caller's buffer is zeroed before the first ioctl and the bytes transferred are zeros, whatever the caller supplied; reads do not zero the buffer first.", "quantifier": "every buffer and taskfile", "why_tests_cant": "Non-interference over all contents.", "anchors": ["plat_linux/sg_driver.go doTaskFileCmd"]}
{"id": "C59", "title": "At most two ioctls per command, the second only after a failure", "statement": "doTaskFileCmd and scsiSecurityCommand issue one SG_IO, and a second one exactly if the first failed; the second carries the same CDB and length; the result is nil only if one of them succeeded.", "quantifier": "every kernel behaviour", "why_tests_cant": "All kernel replies.", "anchors": ["plat_linux/sg_driver.go"]}
{"id": "C60", "title": "Sense data becomes an error; registers are reported back otherwise", "statement": "When the first ioctl succeeds, a non-zero sense key yields an error carrying the status and sense data and leaves the taskfile unchanged; a zero key updates the taskfile from the descriptor bytes and returns nil. After a successful second ioctl the sense data of that ioctl is discarded and nothing it returned reaches the caller's read buffer.", "quantifier": "every kernel behaviour", "why_tests_cant": "All sense contents.", "anchors": ["plat_linux/sg_driver.go doTaskFileCmd"]}
{"id": "C61", "title": "SCSI security CDBs are faithful", "statement": "The SG security command uses opcode B5 to send and A2 to receive, protocol in byte 1, ComID big-endian in bytes 2..3 and the length big-endian in bytes 6..9; sends transmit the caller's bytes unchanged and receives start from a zeroed buffer.", "quantifier": "every protocol, ComID, buffer", "why_tests_cant": "All values.", "anchors": ["plat_linux/sg_driver.go scsiSecurityCommand", "plat_linux/sg_types.go"]}
{"id": "C62", "title": "NVMe log pages: one identical command retried", "statement": "NvmeGetLogPageByAdminPassthru issues the same full-size Get Log Page command at offset 0 until it first succeeds, at most ceil(size/4096) times and not at all for size 0; it returns nil error exactly if size is 0 or some attempt succeeded.", "quantifier": "every size and device behaviour", "why_tests_cant": "Unbounded sizes and failure sequences.", "anchors": ["common/nvme/default.go"]}
{"id": "C63", "title": "NVMe log page command fields", "statement": "For a log id of 8 bits and a size from 4 bytes up to 2^34, every Get Log Page command names exactly that log id and retain flag, log specific fields 0, offset 0, and asks for floor(size/4) dwords (zero-based count split over CDW10 and CDW11), with the size as data length; sizes 1 to 3 ask for 2^32 dwords, and a negative size panics before any command.", "quantifier": "every size, log id, flag and device behaviour", "why_tests_cant": "All sizes around the 16-bit split and the wrap-around.", "anchors": ["common/nvme/default.go"]}
{"id": "C64", "title": "NVMe passthrough copies every command field", "statement": "DoNvmeAdminPassthru hands the kernel a record equal to the caller's in all 18 fields; DoNvmeIoPassthru copies all but the data length, which is always 0.", "quantifier": "every command record", "why_tests_cant": "All field values.", "anchors": ["plat_linux/nvme_driver.go"]}
{"id": "C65", "title": "ioctl numbers", "statement": "IOC packs direction, type, number and size so that each is recoverable when in range, and distinct in-range inputs give distinct numbers; IOR encodes the read-write direction instead of read.", "quantifier": "every in-range quadruple", "why_tests_cant": "Injectivity over all inputs.", "anchors": ["plat_linux/ioctl_utils.go", "plat_linux/nvme_ioctl.go"]}
{"id": "C66", "title": "CDB bit-field setters", "statement": "Every setter except SetMultipleCount and SetExtend stores its value so that its getter reads it back and no other field of the CDB changes. SetMultipleCount instead overwrites the second flag byte and leaves the multiple count unchanged; SetExtend changes the low bit of the transfer-length field and never the EXTEND bit of the command.", "quantifier": "every CDB and value", "why_tests_cant": "All byte values.", "anchors": ["plat_linux/types_ata_passthu.go", "plat_win/ata_passthu_types.go", "plat_linux/types_cdb.go"]}
{"id": "C67", "title": "Drive opening on Linux: last matching driver wins; opening never fails after the device opened", "statement": "OpenByPath returns an error exactly when the device node cannot be opened; otherwise the handle uses the last driver in list order that accepted it (or none), and Init ran once per accepting driver. If none accepted, the file descriptor is owned by nobody: Close on the handle does not release it.", "quantifier": "every combination of driver results", "why_tests_cant": "All accept/reject patterns, resource leak over histories.", "anchors": ["plat_linux/drive_factory.go OpenByPath OpenByFd"]}
{"id": "C68", "title": "Drive enumeration filter", "statement": "EnumDrives opens exactly the block devices of /sys/block whose name contains neither \"loop\" nor \"sr\", in directory order, and reports one record per device that could be opened.", "quantifier": "every directory content and stat/open result", "why_tests_cant": "All directories.", "anchors": ["plat_linux/drive_factory.go EnumDrives"]}
{"id": "C69", "title": "Volume enumeration groups mounts by device", "statement": "EnumVolumes yields one volume per distinct device field of /proc/mounts; its mount points are exactly the mount fields of that device's lines in order, and its file system is the one on the first such line (lines with an empty device field keep the last one). It fails if the table cannot be opened.", "quantifier": "every mounts table", "why_tests_cant": "All tables with duplicates.", "anchors": ["plat_linux/volume.go EnumVolumes"]}
{"id": "C70", "title": "Opening a drive by volume path depends on map order", "statement": "OpenDriveByVolumePath looks only at the first entry in map iteration order: it opens the drive if that entry matches and otherwise returns nil without error, so with two or more volumes there is an iteration order in which an existing volume is not found.", "quantifier": "every volume map and iteration order", "why_tests_cant": "Go's map order is random; a test may pass by luck.", "anchors": ["plat_linux/volume.go OpenDriveByVolumePath"]}
{"id": "C71", "title": "MBR table reading", "statement": "The MBR reader accepts exactly 512-byte sectors ending in 55 AA and returns the little-endian 32-bit identifier at offset 440.", "quantifier": "every sector", "why_tests_cant": "All contents.", "anchors": ["internal/direct_mbr/table.go"]}
{"id": "C72", "title": "Null-terminated text extraction", "statement": "readNullTerminatedAscii returns the bytes from the offset up to the first NUL, and the empty string when the offset is not positive or no NUL follows, and panics exactly if the offset exceeds the buffer; wcslen returns the index of the first zero or the length.", "quantifier": "every buffer and offset", "why_tests_cant": "All contents and offsets.", "anchors": ["plat_linux/utils.go", "plat_win/utils.go"]}
{"id": "C73", "title": "Windows drivers zero every outgoing buffer", "statement": "On Windows, ATA and SCSI taskfile writes and SCSI security sends transmit zeros whatever the caller supplied (for security sends this erases the TCG command), and receives do not clear the buffer.", "quantifier": "every buffer", "why_tests_cant": "Non-interference over contents.", "anchors": ["plat_win/ata_driver.go doTaskFileCmd", "plat_win/scsi_driver.go doTaskFileCmd scsiSecurityCommand"]}
{"id": "C74", "title": "Windows ATA fallback judges the command byte instead of the status", "statement": "When the direct ATA ioctl fails and the buffered one succeeds, the driver tests bits 0 and 3 of the command opcode it had put in the register image (the image is not copied back), so the outcome is decided by the opcode and is independent of the drive's status; for IDENTIFY DEVICE (EC) it always fails.", "quantifier": "every kernel behaviour and opcode", "why_tests_cant": "All replies.", "anchors": ["plat_win/ata_driver.go doTaskFileCmd"]}
{"id": "C75", "title": "Windows: first matching driver wins", "statement": "OpenByHandle uses the first driver in list order that accepts the handle and does not try later ones.", "quantifier": "every combination of driver results", "why_tests_cant": "All patterns.", "anchors": ["plat_win/drive_factory.go OpenByHandle"]}
{"id": "C76", "title": "Windows volume mount points stop after the first", "statement": "For every multi-string of mount points the enumeration records at most one: the first string.", "quantifier": "every mount point list that fits the 4096-character buffer", "why_tests_cant": "All lists.", "anchors": ["plat_win/volume.go EnumVolumes"]}
{"id": "C77", "title": "Authenticate succeeds exactly when the drive's result has low byte 0", "statement": "For every device behaviour Authenticate sends one Authenticate call (authority as given; the hashed or plain challenge only if non-empty) and returns nil exactly when that command was answered by an accepted response whose second token carries a number with low byte 0. An accepted response carrying TRUE (1) is therefore reported as a failure and FALSE (0) as success.", "quantifier": "every device behaviour, authority, challenge", "why_tests_cant": "All responses; an inverted verdict passes any test written against the same mistake.", "anchors": ["tcg/session.go Authenticate"]}
{"id": "C78", "title": "On Linux the ATA fallback of a TCG send transmits zeros", "statement": "When the SG driver's own SCSI security command fails for a send, the handle falls back to the ATA trusted send through the SG taskfile path, and the data phase of that command consists of zeros whatever the caller (for instance a TCG session) supplied.", "quantifier": "every buffer, protocol, ComID and kernel behaviour", "why_tests_cant": "A defect across two layers; tests with a fake driver never see the wire.", "anchors": ["common/drive_handle.go SecurityCommand", "plat_linux/sg_driver.go doTaskFileCmd"]}
{"id": "C79", "title": "The NVMe identity record in DriveInfo is decoded big-endian", "statement": "After Init on an NVMe drive every multi-byte integer of the decoded identity record is the big-endian value of its bytes, while NVMe stores them little-endian; strings and raw data are unaffected.", "quantifier": "every identity block", "why_tests_cant": "Holds for all identity blocks; a test with palindromic values cannot tell.", "anchors": ["common/drive_handle.go Init", "nvme/types.go IdentifyController"]}
{"id": "C80", "title": "Discovery's use of the length field", "statement": "The announced length of a discovery response does not count its own four bytes, yet the walk treats it as the end of the data. A response whose descriptors end exactly at announced length plus four is nevertheless visited completely, unless its last descriptor has an empty body, which is then skipped.", "quantifier": "every response", "why_tests_cant": "All descriptor sequences.", "anchors": ["common/drive_handle.go TcgDiscovery0"]}
{"id": "C81", "title": "ReadSmart reads values, then thresholds, into one buffer", "statement": "ReadSmart issues a SMART READ DATA (D0) and, only if it succeeded, a SMART READ THRESHOLDS (D1) taskfile on the same 512-byte buffer, which is not cleared in between, so bytes the second command does not deliver show the first one's data; it returns the first error it meets, otherwise both decoded records, whose fields are the bytes at the offsets of ATA's SMART tables, except that the 16-bit revision and attribute flags come out with their two bytes exchanged; it never panics on an open or closed handle.", "quantifier": "every handle, timeout and driver behaviour", "why_tests_cant": "All driver replies, including short ones.", "anchors": ["ata_util/utils.go ReadSmart"]}
{"id": "C82", "title": "A rejected SG security command counts as success", "statement": "The SG driver's security command asks the kernel for 0 bytes of sense data and decides by the ioctl result alone: it returns nil exactly if one of its (at most two) ioctls returned nil, whatever SCSI status and sense data the drive produced.", "quantifier": "every drive and kernel behaviour", "why_tests_cant": "A drive that accepts the command cannot show it; all statuses and sense contents.", "anchors": ["plat_linux/sg_driver.go scsiSecurityCommand"]}
{"id": "C83", "title": "SG timeouts: seconds passed as milliseconds", "statement": "Every ioctl of a taskfile command carries the caller's number of seconds in the header's millisecond field (modulo 2^32), while every ioctl of a security command carries 1000 times that number (modulo 2^32).", "quantifier": "every timeout, command and kernel behaviour", "why_tests_cant": "All values, including those that wrap around.", "anchors": ["plat_linux/sg_driver.go doTaskFileCmd scsiSecurityCommand"]}
{"id": "C84", "title": "SG verdict and the sense format", "statement": "When the ioctl succeeds, a taskfile command on Linux returns nil exactly if the sense key is 0, provided the sense data is in fixed format; for descriptor format (the format that carries ATA registers) the verdict is instead decided by the low half of the additional sense code, so for instance an aborted command is reported as success.", "quantifier": "every sense content", "why_tests_cant": "All 2^256 sense buffers.", "anchors": ["plat_linux/sg_driver.go doTaskFileCmd", "scsi/types.go GetSenseKey"]}
{"id": "C85", "title": "Opening a drive through the SG driver", "statement": "Opening sends IDENTIFY DEVICE once, and once more only if the ioctl failed; it succeeds exactly if an ioctl succeeded and the first one's sense area shows key 0 in fixed format; the identity then is what the first ioctl delivered (even if that ioctl failed) followed by zeros; it never panics.", "quantifier": "every kernel behaviour and buffer placement", "why_tests_cant": "All replies and all allocation addresses.", "anchors": ["plat_linux/sg_driver.go openImpl"]}
{"id": "C86", "title": "ioctl results: device status and system error share one namespace", "statement": "The Linux ioctl wrapper reports nil exactly if the system call's return value and error number are both zero; a positive return value n (the NVMe status) and the error number n give the same error value.", "quantifier": "every return value and error number", "why_tests_cant": "All pairs.", "anchors": ["plat_linux/utils.go ioctl"]}
{"id": "C87", "title": "Opening a drive through the Linux NVMe driver", "statement": "Opening issues exactly one Identify Controller command for 4096 bytes, succeeds exactly if that ioctl succeeds, and the identity is then what the device delivered into a zeroed 4096-byte buffer.", "quantifier": "every kernel behaviour", "why_tests_cant": "All replies, including short ones.", "anchors": ["plat_linux/nvme_driver.go openImpl ReadIdentify"]}
{"id": "C88", "title": "Security commands through the handle on Linux NVMe", "statement": "On the Linux NVMe driver SecurityCommand becomes exactly one ioctl: an NVMe Security Send (81h) or Receive (82h) with the caller's protocol and ComID, the buffer length as transfer length and data length, and the buffer exactly as supplied; the result is the ioctl's and delivered bytes are found in the buffer. The caller's timeout and DMA flag have no effect.", "quantifier": "every handle, argument, non-empty buffer below 4 GiB and kernel behaviour", "why_tests_cant": "Two layers with an always-failing first attempt; all kernel replies.", "anchors": ["common/drive_handle.go SecurityCommand", "plat_linux/nvme_driver.go SecurityCommand DoNvmeAdminPassthru"]}
{"id": "C89", "title": "Capacity and partition data of an opened drive on Linux", "statement": "A drive opened by path reports the capacity, partition style, GPT id and MBR signature found by ReadBasicInfo on the opened descriptor; ReadBasicInfo succeeds exactly if the partition library opens the device and HDIO_GETGEO succeeds, whatever the size ioctl said. If HDIO_GETGEO fails (as on NVMe devices) the record shows capacity 0 and style raw although both are known. The drivers tried afterwards never change these fields.", "quantifier": "every answer of the kernel and of the partition library, every driver behaviour", "why_tests_cant": "All combinations of failing probes; a test machine has one.", "anchors": ["plat_linux/utils.go ReadBasicInfo", "plat_linux/drive_factory.go OpenByFd"]}
{"id": "C90", "title": "Model and serial from /dev/disk/by-id", "statement": "For every directory content and every iteration order of the map, the model and serial reported before a driver answers are those carried by the name of some not-ignored link that resolves to the device path and contains an underscore (serial after the last underscore, model between the first hyphen and it), empty if there is none; one link that cannot be resolved empties all four texts, whichever drive it belongs to; if two links qualify either can be reported. When no driver accepts, these are the final texts.", "quantifier": "every directory, resolution result, map order", "why_tests_cant": "All directories and Go's random map order.", "anchors": ["plat_linux/drive_factory.go getIdInfo"]}
{"id": "C91", "title": "Partition information of mounted volumes", "statement": "For every mount table and system behaviour, a volume carries partition information exactly if some line for its device (\"/dev/\u2026<digit>p<number>\") led to an inquiry that opened the parent drive, read its partition table and geometry, and found an entry with that number (from 1); it is that entry of the last such inquiry: style, type, identifiers and start of the entry, and the parent path from the name. The reported size is always the start of the partition, never its size.", "quantifier": "every mount table, every drive and library behaviour", "why_tests_cant": "All tables and all interleavings of duplicate lines; a fixture whose start equals its size hides the wrong size.", "anchors": ["plat_linux/volume.go EnumVolumes, PartitionImpl", "plat_linux/utils.go ReadBasicInfo"]}
{"id": "C92", "title": "Enumerating volumes leaks one descriptor per partition line", "statement": "A successful EnumVolumes opens the parent drive once for each mount line whose device is a partition \u2014 again for every further line on the same drive \u2014 and closes none of these descriptors.", "quantifier": "every mount table, every system behaviour", "why_tests_cant": "Counts over all tables; a leak is invisible in return values.", "anchors": ["plat_linux/volume.go EnumVolumes"]}
{"id": "C93", "title": "Partition number 0 crashes volume enumeration", "statement": "EnumVolumes panics only when a mounted device is named \u2026p0 (00, \u2026) and its drive has a partition table; when all drives are readable it panics exactly if such a device is mounted. Without such a name it always returns.", "quantifier": "every mount table, every system behaviour", "why_tests_cant": "Absence of panics over all inputs.", "anchors": ["plat_linux/volume.go EnumVolumes"]}
{"id": "C94", "title": "Finding volumes of a drive", "statement": "FindVolumesByDrive returns the volume whose device field equals the drive's path: exactly one if the drive itself is mounted, none otherwise, even if partitions of the drive are mounted. GetList reports every volume once: for each device of the mount table its path, the file system and mount points of its lines, and the partition found for it, if any.", "quantifier": "every mount table and drive path", "why_tests_cant": "All tables.", "anchors": ["plat_linux/volume.go FindVolumesByDrive GetList"]}
{"id": "C95", "title": "Errors that end the scan of the mount table are lost", "statement": "If reading /proc/mounts fails after a complete line, or a line has 65536 bytes or more, EnumVolumes succeeds with the lines before that point and drops the rest silently; a read error in the middle of a line is reported.", "quantifier": "every content and read error", "why_tests_cant": "Content and error position range over everything.", "anchors": ["plat_linux/volume.go EnumVolumes"]}
{"id": "C96", "title": "Windows pass-through: one direct request, one buffered retry", "statement": "Every ATA/SCSI taskfile command and SCSI security command on Windows sends the direct control code once, with a 512-aligned data area of exactly the caller's length; only if that fails, the buffered code once with record and data in one buffer; nothing else. SCSI results are judged by the sense key Windows left in the record of whichever request succeeded; if both fail the second error is returned. For reads the caller's buffer afterwards is the delivered data over the old content (over zeros if an aligned copy was used). An empty buffer panics before any request.", "quantifier": "every command, buffer, buffer address and system behaviour", "why_tests_cant": "All replies and addresses.", "anchors": ["plat_win/ata_driver.go doTaskFileCmd", "plat_win/scsi_driver.go doTaskFileCmd scsiSecurityCommand"]}
{"id": "C97", "title": "Windows pass-through records carry the caller's command", "statement": "The records handed to Windows, decoded by offset (ntddscsi.h): ATA registers, direction and 48-bit flags, lengths, timeout, data pointer or offset are those of the call in both requests; the SCSI record announces the CDB and 32 bytes of sense data at offset 60. The security CDB is SECURITY PROTOCOL IN/OUT with protocol, ComID and transfer length. The taskfile CDB has the right registers but protocol 0, no transfer length, no direction and no EXTEND bit, whatever the command.", "quantifier": "every taskfile, direction, buffer, timeout, reply to the first request", "why_tests_cant": "Bit layouts over all inputs.", "anchors": ["plat_win/ata_driver.go doTaskFileCmd", "plat_win/ata_types.go", "plat_win/scsi_driver.go doTaskFileCmd scsiSecurityCommand", "plat_win/scsi_types.go", "plat_win/ata_passthu_types.go"]}
{"id": "C98", "title": "When the Windows ATA and SCSI drivers accept a drive", "statement": "The ATA driver accepts exactly if the direct IDENTIFY DEVICE succeeds and the status it leaves shows neither ERR nor DRQ; after a failed direct request it always refuses. The SCSI driver accepts exactly if a request succeeds and leaves sense key 0. The identity is the data delivered over 512 zero bytes. Neither panics.", "quantifier": "every system behaviour and buffer placement", "why_tests_cant": "All replies.", "anchors": ["plat_win/ata_driver.go openImpl", "plat_win/scsi_driver.go openImpl"]}
{"id": "C99", "title": "Windows miniport: admin commands and what is dropped", "statement": "An NVMe admin command through the miniport driver with more than 4096 bytes is refused without a request. Otherwise one record goes out with opcode, namespace, dwords 10-15 and the caller's bytes, but always with direction device-to-host, a 40 s timeout, no flags, no dwords 2-3 and no metadata. The completion status and the return code the drive leaves in the record are never looked at: if DeviceIoControl itself succeeds, the call reports success and copies the data area over the caller's memory.", "quantifier": "every command, buffer, system behaviour and completion entry", "why_tests_cant": "All replies; in particular all pairs of replies that differ only in the status.", "anchors": ["plat_win/nvme_scsi.go scsiMiniportDoNvmeAdminPassthru", "plat_win/nvme_win_types.go"]}
{"id": "C100", "title": "Windows miniport: how a drive is opened, and the handle that is never closed", "statement": "The miniport driver asks the handle for its SCSI address, opens \\\\.\\SCSI<port>: (port in decimal) and sends Identify Controller; it accepts exactly if all three succeed, with the 4096 bytes of the answer as identity. A failed open closes what it opened; a successful one holds a second handle that Close never closes.", "quantifier": "every system behaviour and port number", "why_tests_cant": "All replies; a leak is invisible in return values.", "anchors": ["plat_win/nvme_win_driver.go GetScsiPath QueryNvmeIdentity openImpl Close"]}
{"id": "C101", "title": "Windows inbox NVMe driver: identity and log pages", "statement": "The inbox driver accepts exactly if Windows answers its storage query; the identity is 4096 bytes. A log page is read with one query that names the page and the size but neither the namespace nor the retain flag; an answer whose version and size are not both 48 is an error, otherwise the bytes after the header are returned, exactly as many as requested.", "quantifier": "every log page, namespace, flag, size below 4 GiB, system behaviour", "why_tests_cant": "All replies and sizes.", "anchors": ["plat_win/windows_nvme_driver.go QueryNvmeIdentity openImpl NvmeGetLogPage", "plat_win/windows_nvme_types.go"]}
{"id": "C102", "title": "Windows: what a security send hands to the drive", "statement": "A send through a drive handle on Windows hands the system only zeros, in the first attempt and in every fallback, if the driver is the ATA, the SCSI or the inbox NVMe driver; the caller's buffer is zeroed. With the miniport driver one admin command 81h carries the caller's bytes but is marked device-to-host; more than 4096 bytes are refused.", "quantifier": "every buffer, protocol, ComID, driver, system behaviour", "why_tests_cant": "All fallback paths and replies.", "anchors": ["common/drive_handle.go SecurityCommand", "plat_win/scsi_driver.go SecurityCommand", "plat_win/ata_driver.go", "plat_win/windows_nvme_driver.go SecurityCommand", "plat_win/nvme_win_driver.go"]}
{"id": "C103", "title": "Windows: what is known of a drive before a driver is tried", "statement": "Opening a drive on Windows asks for device number, size and partition layout independently: number and size are known exactly if their inquiry succeeded, a layout that cannot be read leaves the drive without partition style. A readable layout must have 48 bytes and list only entries of its own style, otherwise the call panics; the partitions are the completely returned entries among those announced, in order, with start, length and identifiers as stored (GPT identifiers in braces and upper case, the disk identifier in lower case without braces), on the disk of that number.", "quantifier": "every reply of Windows, of any length", "why_tests_cant": "All byte strings, including truncated ones.", "anchors": ["plat_win/utils.go ReadBasicInfo readDeviceIoControl", "plat_win/storage_types.go", "plat_win/storage_win_types.go"]}
{"id": "C104", "title": "Windows storage query", "statement": "ReadStorageQuery asks for the device property and decodes the descriptor returned: vendor, product, revision and serial are the texts at the stored offsets up to their NUL, without spaces at the ends (empty for offset 0 or if no NUL follows). It panics exactly if no bytes come back (or Windows names buffer size 0, or claims more bytes than asked for), or if an offset lies behind the bytes returned.", "quantifier": "every reply of Windows", "why_tests_cant": "All offsets and contents.", "anchors": ["plat_win/utils.go ReadStorageQuery readDeviceIoControl readNullTerminatedAscii"]}
{"id": "C105", "title": "Windows: how an opened drive is described", "statement": "The drive reports the path, style, partitions, capacity and number learned before; an unknown number is reported as 0, as that of the first disk. With a driver it carries that driver's name, kind, interfaces and identity, and no storage query is made. Without one it is still opened without error, and model, serial, vendor, revision, removable flag and type come from the storage query if that succeeds.", "quantifier": "every system behaviour, every driver list", "why_tests_cant": "All replies and driver results.", "anchors": ["plat_win/drive_factory.go OpenByHandle OpenByPath"]}
{"id": "C106", "title": "Windows: handles of an opened drive", "statement": "A failed OpenByPath leaves no handle open. A successful one leaves open the device's handle and what the driver keeps (the miniport driver's second handle, nothing for the others). Close closes the device's handle once and nothing else; if no driver accepted the drive it closes nothing, so the device stays open.", "quantifier": "every path, system behaviour and driver choice", "why_tests_cant": "A leak is invisible in return values.", "anchors": ["plat_win/drive_factory.go OpenByPath OpenByHandle", "common/drive_handle.go Close"]}
{"id": "C107", "title": "Windows: enumerating drives", "statement": "EnumDrives lists the drives of Windows' device list in order. A device without disk interface, with unreadable details or that cannot be opened is left out; the first interface error other than \"no more items\" ends the list without an error. It ends when Windows' list ends; then all listed drives that have a driver are closed once, last first, and the device list is given back. Every handle opened on the way is closed exactly once, except those the drivers keep and those of drives without a driver.", "quantifier": "every device list and system behaviour", "why_tests_cant": "Any number of devices, any pattern of failures.", "anchors": ["plat_win/drive_factory.go EnumDrives", "plat_win/setupapi.go"]}
{"id": "C108", "title": "Windows: enumerating volumes", "statement": "EnumVolumes lists the volumes of Windows' search in order, ending when the search ends (any failure of the next search ends the list without error; a failure of the first is returned). Each volume carries its name without trailing backslashes, the file system (empty if the inquiry failed), the drive type and, if it can be opened, its extents and the partition at the first one (start and length those of the extent, style and identifiers as Windows reports); a volume that cannot be opened is still listed, without extents. The error mode is set for the duration and the one found is restored.", "quantifier": "every set of volumes and system behaviour", "why_tests_cant": "Any number of volumes, any pattern of failures, any buffer contents.", "anchors": ["plat_win/volume.go EnumVolumes readPartitionInfoByVolumeHandle", "plat_win/storage_types.go"]}
{"id": "C109", "title": "Windows: when enumerating volumes panics", "statement": "EnumVolumes panics only if Windows' list of mount points has no end within 4096 characters, or if a volume announces more than 171 extents (more than the buffer holds); and an enumeration that returns has seen neither.", "quantifier": "every system behaviour", "why_tests_cant": "All answers, of any length.", "anchors": ["plat_win/volume.go EnumVolumes"]}
{"id": "C110", "title": "Windows: handles of the volume enumeration", "statement": "An EnumVolumes that returns has closed every volume it opened, exactly once and last one first, and opened no other device.", "quantifier": "every system behaviour", "why_tests_cant": "A leak is invisible in return values.", "anchors": ["plat_win/volume.go EnumVolumes"]}
{"id": "C111", "title": "Windows: volumes of a drive", "statement": "GetList returns all volumes in order; FindVolumesByDrive those whose first extent lies on the disk with the drive's number, in order: a volume spanning disks is found from its first disk only. A drive whose number Windows did not tell is given the volumes of disk 0.", "quantifier": "every list of volumes, every drive number", "why_tests_cant": "All lists and extents.", "anchors": ["plat_win/volume.go GetList FindVolumesByDrive ToVolumeInfo GetPartitionStyle", "plat_win/drive_factory.go OpenByHandle"]}
{"id": "C112", "title": "Windows: opening the drive of a volume or partition", "statement": "OpenDriveByVolumePath opens \\\\.\\PhysicalDrive<n>, n in decimal, for the disk n of the first extent of the first listed volume with that path (compared up to one trailing backslash), and returns what opening it returns; without such a volume, or if it has no extents, it returns neither a drive nor an error and opens nothing. OpenDriveByPartition opens the physical drive of the partition's disk number.", "quantifier": "every list of volumes, path and system behaviour", "why_tests_cant": "All lists and paths.", "anchors": ["plat_win/volume.go OpenDriveByVolumePath OpenDriveByPartition"]}
{"id": "C113", "title": "Enumeration of drives: after a panic", "statement": "If EnumDrives panics (a drive's answer makes its Init panic; on Windows also a detail size that becomes 0), the panic comes from one entry, and all drives opened for earlier entries have been closed, each exactly once and the last first, when it reaches the caller; on Windows the device list is given back too. The drive being opened itself is not closed.", "quantifier": "every system behaviour, every drive answer, the panic at any position", "why_tests_cant": "A panic may strike at every entry; what a recovering caller has lost cannot be seen from one run.", "anchors": ["plat_linux/drive_factory.go EnumDrives", "plat_win/drive_factory.go EnumDrives"]}
{"id": "C114", "title": "Windows: the volume enumeration after a panic", "statement": "If EnumVolumes panics, the search for volumes broke off at one bad answer, and before the panic reaches the caller every volume opened, that one included, is closed exactly once and last first, the search is closed and the error mode restored.", "quantifier": "every system behaviour, the panic at any position", "why_tests_cant": "A panic may strike at every volume and in two places.", "anchors": ["plat_win/volume.go EnumVolumes"]}
{"id": "C115", "title": "Linux: opening the drive of a partition", "statement": "For every volume of a successful EnumVolumes that reports a partition, OpenDriveByPartition on it behaves as OpenByPath on the drive its device name belongs to (/dev/\u2026<digit> without p<number>), the drive whose partition table was read; nothing else is opened first.", "quantifier": "every mount table, every system behaviour", "why_tests_cant": "All tables and names.", "anchors": ["plat_linux/volume.go OpenDriveByPartition EnumVolumes"]}
{"id": "C116", "title": "Linux: opening and enumerating drives only reads from them", "statement": "Whatever the system answers, every ioctl that OpenByPath and EnumDrives of the system drive factory send to a drive only reads: NVMe Identify, ATA IDENTIFY DEVICE, or receiving the level 0 discovery data with security protocol 1 and ComID 1 (NVMe Security Receive, SECURITY PROTOCOL IN, TRUSTED RECEIVE); every SG request has data direction from the device, and no NVMe I/O command is sent.", "quantifier": "every system and drive behaviour, every number of drives, returning and panicking runs", "why_tests_cant": "The commands depend on what every drive answered before; no finite set of fakes covers all answers.", "anchors": ["plat_linux/drive_factory.go OpenByPath EnumDrives", "plat_linux/nvme_driver.go", "plat_linux/sg_driver.go", "common/drive_handle.go Init TcgDiscovery0"]}
{"id": "C117", "title": "Linux: what an opened drive is", "statement": "OpenByPath of the system drive factory opens the node first; if that fails it returns this error and does nothing else; if it succeeds it never returns an error. When it returns a drive, the node was opened once and nothing was closed; one NVMe Identify and one IDENTIFY DEVICE (two if the first did not go through) were sent, to the new descriptor; the drive is an ATA drive with model, serial, firmware, SMART and SSD information from the 512 bytes the drive delivered if IDENTIFY DEVICE was accepted, even if the NVMe Identify was accepted too; otherwise an NVMe drive described by its 4096 identity bytes if that was accepted; otherwise it has no driver.", "quantifier": "every system and drive behaviour", "why_tests_cant": "All answers of all calls in between, in all combinations.", "anchors": ["plat_linux/drive_factory.go OpenByPath OpenByFd", "plat_linux/nvme_driver.go OpenByFd", "plat_linux/sg_driver.go OpenByFd", "common/drive_handle.go Init"]}
{"id": "C118", "title": "Linux: descriptors of opened and enumerated drives", "statement": "Close on an opened drive closes its descriptor exactly once if a driver accepted the drive and makes no system call otherwise. When EnumDrives returns, each record is what OpenByPath gave for its node at that point, and the descriptors closed are exactly those of the opened drives with a driver, each once, last opened first; drives without a driver keep their descriptor.", "quantifier": "every system and drive behaviour, every number of drives", "why_tests_cant": "Leaks and double closes depend on the combination of answers.", "anchors": ["plat_linux/drive_factory.go EnumDrives", "plat_linux/nvme_driver.go Close", "plat_linux/sg_driver.go Close", "common/drive_handle.go Close"]}
{"id": "C119", "title": "Windows: opening and enumerating drives only reads from them", "statement": "Whatever Windows and the drives answer, every control request that OpenByPath, EnumDrives and EnumVolumes of the Windows drive factory send only reads: inquiries about the device, standard property queries, and pass-through records with direction from the device whose command is ATA IDENTIFY DEVICE, NVMe Identify, or receiving the level 0 discovery data with security protocol 1 and ComID 1. (The protocol field of the ATA pass-through CDBs is 0; only their registers say what is meant, see C97.)", "quantifier": "every system and drive behaviour, every number of drives and volumes, returning and panicking runs", "why_tests_cant": "The commands depend on what every drive answered before; no finite set of fakes covers all answers.", "anchors": ["plat_win/drive_factory.go OpenByPath EnumDrives", "plat_win/nvme_win_driver.go", "plat_win/windows_nvme_driver.go", "plat_win/scsi_driver.go", "plat_win/ata_driver.go", "plat_win/volume.go EnumVolumes", "common/drive_handle.go Init TcgDiscovery0"]}
{"id": "C120", "title": "Fields of the decoded ATA identity", "statement": "After Init on an ATA drive with a complete identity block, every one of the 111 fields of AtaIdentity holds the bytes of the word(s) ATA8-ACS assigns to it (integers little-endian); SerialNumber, FirmwareRevision and ModelNumber hold theirs with each byte pair exchanged.", "quantifier": "every identity block, every field", "why_tests_cant": "One shifted field moves all after it only for blocks that are not symmetric; a test looks at a few fields of a few drives.", "anchors": ["ata/types.go IdentityDeviceData", "common/drive_handle.go Init", "internal/utils.go"]}
{"id": "C121", "title": "Capability questions on the ATA identity", "statement": "IsSanitizeFeatureSetSupported, IsOverwriteExtSupported, IsCryptoScrambleExtSupported, IsBlockEraseExtSupported, IsSanitizeAntifreezeLockExtSupported, IsSanitizeOperationStandardCompliant, IsMultiSectorSettingValid, both GetSmartCommands and GetTrim on the record of an initialised drive answer exactly the bits 12, 14, 13, 15, 10, 11 and 8 of word 59, bit 0 of words 82 and 85 and bit 0 of word 169.", "quantifier": "every identity block", "why_tests_cant": "All bit patterns of the words, through decoding.", "anchors": ["ata/types.go IdentityWord59 IdentityCommandSetSupport IdentityCommandSetActive IdentityDataSetManagementFeature"]}
{"id": "C122", "title": "Fields of the decoded NVMe identity", "statement": "After Init on an NVMe drive with a complete identity block, every field of NvmeIdentity holds the bytes at the offset NVMe 1.4 gives it: the 85 fields below 2048, the 15 fields of each of the 32 power states from 2048, the vendor area from 3072. (Integers of more than one byte are decoded big-endian, see C79.)", "quantifier": "every identity block, every field and power state", "why_tests_cant": "All fields of all blocks.", "anchors": ["nvme/types.go IdentifyController IdentifyPowerState", "common/drive_handle.go Init"]}
{"id": "C123", "title": "Small accessors", "statement": "The accessors of a sense record read response code, valid bit, sense key, ILI, EOM and filemark where SPC puts them; SetVersion and GetVersion store and read the upper four bits only; NewNestedError joins message and cause with ': ' and keeps the cause, and panics on a nil cause; StorageBusTypeToString gives the table's name and is empty for other values.", "quantifier": "all bytes and messages", "why_tests_cant": "All values.", "anchors": ["scsi/types.go SENSE_DATA", "tcg/types.go VersionField", "common/errors.go", "plat_win/storage_types.go StorageBusTypeToString"]}
{"id": "C124", "title": "TCG on Linux: one NVMe command per security command, on the drive that was opened", "statement": "Every drive the Linux factory returns is bound to the descriptor opened for its path, by the NVMe driver, by the SCSI generic driver, or by none. On a drive bound by the NVMe driver, every TCG operation (any program of TCG sends, receives, waits) acts, whatever the kernel answers, as a conversation with some drive, and each security command of it is exactly one NVMe admin ioctl on that descriptor: Security Send or Security Receive with the same protocol, ComID, length and buffer; its error is the ioctl's error number or status, its data what the ioctl delivered.", "quantifier": "every drive, operation, payload and kernel behaviour", "why_tests_cant": "The layers are tested separately with fakes; the composition over all answers is not.", "anchors": ["tcg/device.go Exec", "tcg/drive_handle.go", "common/drive_handle.go SecurityCommand", "plat_linux/nvme_driver.go", "plat_linux/drive_factory.go OpenByPath"]}
{"id": "C125", "title": "TCG on Linux: RevertTPer and GetDefaultPassword on an NVMe drive, in system calls", "statement": "On an Opal NVMe drive opened by the factory, RevertTPer sends nothing but Security Send and Security Receive of protocol 1 on the base ComID to that drive; the payloads sent are the StartSession command for the given password (PSID or SID, or anonymous) and then, only after an accepted answer with both session numbers, the Revert call in that session; success is reported only after an accepted answer to it. GetDefaultPassword sends the anonymous StartSession and then at most the Get of the MSID PIN, and returns a password only from an accepted answer to it.", "quantifier": "every password, drive and kernel behaviour", "why_tests_cant": "A destructive command: which bytes reach which drive after which answers, over all answers.", "anchors": ["tcg/device_opal.go RevertTPer", "tcg/device.go", "tcg/session.go", "plat_linux/nvme_driver.go"]}
{"id": "C126", "title": "TCG on Linux: security commands on a SCSI generic drive or on none", "statement": "On a drive bound by the SCSI generic driver, each security command of a TCG operation is a SECURITY PROTOCOL OUT or IN command on the drive's descriptor with the same protocol, ComID and buffer, repeated at most once (with the number 128 as data address) when the ioctl fails, and followed by ATA TRUSTED SEND or RECEIVE of the same protocol and ComID only if both failed; nothing else reaches the drive; TRUSTED SEND carries only zeros. RevertTPer and GetDefaultPassword have the guarantees of C125. On a drive without driver a security command is 'not supported' without a system call.", "quantifier": "every drive, operation, password and kernel behaviour", "why_tests_cant": "All combinations of failing ioctls and alignment.", "anchors": ["plat_linux/sg_driver.go scsiSecurityCommand doTaskFileCmd", "common/drive_handle.go SecurityCommand", "tcg/device.go", "tcg/device_opal.go"]}
{"id": "C127", "title": "PSID revert on a conforming drive", "statement": "On an Opal drive that behaves as TCG Core and Opal prescribe, with a session to spare and answering within 10 s, RevertTPer with the PSID printed on the drive returns nil and leaves the drive in factory state (SID credential = MSID, no sessions, one revert more); with any other password, including none, it returns the TCG error 1 (not authorized) and the drive is neither reverted nor has another credential.", "quantifier": "every conforming drive (session numbers, atom forms, padding, repeated 'not ready' answers, header fields left open), PSID, PSID argument up to 400 bytes, history", "why_tests_cant": "What a drive does with the transmitted bytes is not visible to tests with recorded answers; all drives and passwords.", "anchors": ["tcg/device_opal.go RevertTPer", "tcg/session.go Start SendCommand", "tcg/command.go", "tcg/response.go", "tcg/device.go Exec"]}
{"id": "C128", "title": "SID revert on a conforming drive", "statement": "On such a drive RevertTPer with a SID password succeeds exactly when the drive's SID credential is the 34 bytes D0 20 followed by the PBKDF2 key of the password's first 32 bytes (the encoded form, header included, is sent as the value); on every other drive, so on each whose credential is the key itself or has a length other than 34 bytes (such as an unowned drive with an MSID of other length), it returns error 1 whatever the password. At any clock, timeouts included: a revert that reports success has taken place with the right password, and with a wrong one the drive is not reverted.", "quantifier": "every conforming drive, password (of any length), clock and history", "why_tests_cant": "Same as C127; needs the drive's view of the credential.", "anchors": ["tcg/device_opal.go RevertTPer", "tcg/session.go Start", "tcg/utils.go TcgHashPassword", "tcg/device.go Exec"]}
{"id": "C129", "title": "GetDefaultPassword on a conforming drive, and running out of sessions", "statement": "On such a drive with a session to spare GetDefaultPassword returns the MSID byte for byte and leaves one more session open on the drive; it changes neither credential nor factory state. Of n calls in a row exactly the first (sessions to spare) return the MSID, all later ones fail with TCG error 7 (no sessions available), and then RevertTPer fails with error 7 too, even with the right PSID.", "quantifier": "every conforming drive, MSID, number of calls and sessions", "why_tests_cant": "Histories of any length; the state is in the drive.", "anchors": ["tcg/device_opal.go GetDefaultPassword RevertTPer", "tcg/device.go OpalGetTable", "tcg/session.go"]}
{"id": "C130", "title": "TCG operations from opening the node on, on a conforming NVMe drive", "statement": "On Linux, take a descriptor behind which the kernel answers NVMe Security Send and Receive as a conforming Opal drive with base ComID c would (and level 0 discovery with descriptors naming c). If the node opens as that descriptor, NVMe Identify succeeds on it and SG_IO is refused, OpenByPath returns a drive bound to it by the NVMe driver. Whenever it does, NewTcgDevice on it finds an Opal device with base ComID c, opening did not change the drive's TCG state, and from then on at any time, whatever else was asked in between: RevertTPer with the PSID succeeds and leaves factory state, with another password fails with error 1 and reverts nothing; RevertTPer with the SID succeeds exactly when the SID credential is D0 20 and the derived key; GetDefaultPassword returns the MSID while a session is left. Without any assumption on the clock, success is never reported unless the drive is in factory state.", "quantifier": "every conforming drive and kernel behaviour otherwise, every path, password (PSIDs up to 400 bytes) and history", "why_tests_cant": "Only the real stack with a real drive runs all layers together, and reverting is destructive.", "anchors": ["plat_linux/drive_factory.go OpenByPath", "plat_linux/nvme_driver.go", "common/drive_handle.go Init TcgDiscovery0 SecurityCommand", "tcg/device.go NewTcgDevice Exec", "tcg/device_opal.go RevertTPer GetDefaultPassword", "tcg/session.go"]}
{"id": "C131", "title": "TCG operations from opening the node on, on a conforming drive behind SCSI generic", "statement": "As C130 for a descriptor on which NVMe ioctls fail and SG_IO executes SECURITY PROTOCOL IN and OUT as a conforming Opal drive with base ComID c would. If the node opens as that descriptor and ATA IDENTIFY DEVICE succeeds on it without sense data, OpenByPath returns a drive bound to it by the SCSI generic driver. Whenever it does, NewTcgDevice on it finds an Opal device with base ComID c, opening did not change the drive's TCG state, and from then on at any time: RevertTPer with the PSID succeeds and leaves factory state, with another password fails with error 1 and reverts nothing; RevertTPer with the SID succeeds exactly when the SID credential is D0 20 and the derived key; GetDefaultPassword returns the MSID while a session is left. Without any assumption on the clock, success is never reported unless the drive is in factory state.", "quantifier": "every conforming drive and kernel behaviour otherwise, every path, password (PSIDs up to 400 bytes) and history", "why_tests_cant": "Only the real stack with a real drive runs all layers together, and reverting is destructive.", "anchors": ["plat_linux/drive_factory.go OpenByPath", "plat_linux/sg_driver.go", "common/drive_handle.go Init TcgDiscovery0 SecurityCommand", "tcg/device.go NewTcgDevice Exec", "tcg/device_opal.go RevertTPer GetDefaultPassword", "tcg/session.go"]}
{"id": "C132", "title": "ATA commands through an opened Linux drive", "statement": "AtaDoTaskFileCmd (any registers, direction, DMA flag, timeout; buffer nil or not) on a drive the Linux factory opened. On an NVMe drive or without driver: no system call, error \"not supported in this driver\", registers and buffer untouched. On a SCSI generic drive: an empty non-nil buffer panics before any ioctl; otherwise one SG_IO on that drive's descriptor carries exactly the registers given as ATA PASS-THROUGH (12 bytes, 16 for 48-bit commands), in the direction and for the length of the buffer, with one repetition (data address 128) only if it failed; the error is the second ioctl's if both failed, else decided by the first answer's sense key, the registers returned are those the sense area reports, a read delivers the device's bytes, and a write sends zeros instead of the caller's bytes and zeroes his buffer.", "quantifier": "every drive, command, buffer and kernel behaviour", "why_tests_cant": "Needs every register value and ioctl result, and the whole stack.", "anchors": ["common/drive_handle.go AtaDoTaskFileCmd", "plat_linux/sg_driver.go DoTaskFileCmd", "plat_linux/drive_factory.go OpenByPath"]}
{"id": "C133", "title": "Log pages through an opened Linux drive", "statement": "NvmeGetLogPage on a drive the Linux factory opened. On a SCSI generic drive or without driver: no system call, error \"not supported in this driver\", no bytes. On an NVMe drive (log identifier of 8 bits, size from 4 bytes to 4 GiB): only Get Log Page admin ioctls on that drive's descriptor, each for the namespace, log and retain flag given, at offset 0 and for the whole size, all into one zeroed buffer of that size; each but the last failed, there are at most one per 4096 bytes and exactly that many if none succeeds. The buffer is returned, with the last attempt's error or nil.", "quantifier": "every drive, argument and kernel behaviour", "why_tests_cant": "Retry loops of any length over every ioctl result.", "anchors": ["common/drive_handle.go NvmeGetLogPage", "common/nvme/default.go NvmeGetLogPageByAdminPassthru", "plat_linux/nvme_driver.go NvmeGetLogPage"]}
{"id": "C134", "title": "What initialising a handle learns about TCG", "statement": "Init on any handle with a complete identity block, whatever it knew before, sends the level 0 discovery command, nothing else, and returns no error whatever became of it. All raw features known before are forgotten while feature flags stay: if the command failed, no raw feature is known, the flags are the old ones and the support indicator is -1 for \"not supported\", else 0; if the response announces more than 2048 bytes, the same with indicator 1; if a descriptor does not fit, Init panics; otherwise the raw features are exactly the response's descriptors (the last of each code) and a flag is set if it was set before or the response reports its feature.", "quantifier": "every handle state, driver and response", "why_tests_cant": "Histories of repeated initialisation.", "anchors": ["common/drive_handle.go Init TcgDiscovery0"]}
{"id": "C135", "title": "RevertTPer is blind to the password on Windows", "statement": "On a drive the Windows factory opened with any driver but the vendor NVMe miniport one (so the ATA, the SCSI and the inbox NVMe driver), RevertTPer does exactly the same whatever password, PSID flag and administrator flag are given: the same requests with the same bytes in the same order and the same result, whatever the system answers. No such revert can therefore depend on the right password.", "quantifier": "every opened drive, pair of passwords and options, device state, history and behaviour of Windows", "why_tests_cant": "Equality of two runs for every pair of passwords and every environment; the error is invisible to a test that only checks one run.", "anchors": ["plat_win/scsi_driver.go", "plat_win/ata_driver.go", "plat_win/windows_nvme_driver.go", "plat_win/drive_factory.go OpenByPath", "common/drive_handle.go SecurityCommand", "tcg/device_opal.go RevertTPer", "tcg/session.go"]}
{"id": "C136", "title": "What TCG operations ask of Windows", "statement": "Every drive the Windows factory returns is bound by one of its four drivers to the handle opened for it, or has no driver. RevertTPer and GetDefaultPassword (and every TCG operation) on it make no other requests of Windows than security commands: of protocol 1 and the device's own ComID, in the record type of that driver, on its own handle, for 512 to 61440 bytes in the direction of the command; through every driver but the miniport one each byte sent is 0. On a drive without driver no request reaches Windows.", "quantifier": "every opened drive, operation, history and behaviour of Windows", "why_tests_cant": "Holds for every answer of the system along runs of any length.", "anchors": ["plat_win/drive_factory.go OpenByPath", "plat_win/ata_driver.go", "plat_win/scsi_driver.go", "plat_win/nvme_win_driver.go", "plat_win/windows_nvme_driver.go", "common/drive_handle.go SecurityCommand", "tcg/device.go Exec"]}
{"id": "C137", "title": "TCG operations through the Windows NVMe miniport driver", "statement": "On a drive of the vendor NVMe miniport driver a TCG operation behaves as in a conversation with some drive in which each security command of up to 4096 bytes is exactly one miniport request on the adapter's handle (Security Send or Receive with that protocol, ComID and those bytes), whose result and data are the answer; longer ones fail with \"too long data\" without a request. RevertTPer sends the StartSession command with the credential and then, only after an accepted answer with both session numbers, the Revert call in that session, and reports success only after an accepted answer to it; GetDefaultPassword sends an anonymous StartSession and at most the Get of C_PIN_MSID, and returns a password only from an accepted answer to that.", "quantifier": "every opened drive, password, history and behaviour of Windows", "why_tests_cant": "Needs every reply of the miniport over protocol runs of any length.", "anchors": ["plat_win/nvme_win_driver.go", "plat_win/nvme_scsi.go", "common/drive_handle.go SecurityCommand", "tcg/device_opal.go RevertTPer GetDefaultPassword", "tcg/session.go", "tcg/device.go Exec"]}
{"id": "C138", "title": "ATA commands through an opened Windows drive", "statement": "AtaDoTaskFileCmd (any registers, direction, DMA flag, timeout; buffer nil or not) on a drive the Windows factory opened. On an NVMe drive or without driver: no request, error \"not supported in this driver\", registers and buffer untouched. On a drive of the ATA or SCSI driver: a nil or empty buffer panics before any request; otherwise the taskfile comes back unchanged (no register of the drive reaches the caller), one request carries the registers, direction, length and timeout given, with one repetition only if it failed; the error is the second request's if both failed, else decided by the status byte (ATA) or sense key (SCSI); a read delivers what Windows stored, and a write sends zeros instead of the caller's bytes and zeroes his buffer.", "quantifier": "every drive, command, buffer, address and behaviour of Windows", "why_tests_cant": "Needs every register value and result, and the whole stack.", "anchors": ["common/drive_handle.go AtaDoTaskFileCmd", "plat_win/ata_driver.go", "plat_win/scsi_driver.go"]}
{"id": "C139", "title": "Log pages through an opened Windows drive", "statement": "NvmeGetLogPage on a drive the Windows factory opened. On a drive of the ATA or SCSI driver or without driver: no request, error \"not supported in this driver\". Through the miniport driver: no request, error \"not supported\". Through the inbox NVMe driver, for every size up to 4 GiB: one property query on the drive's handle for that log and size, but neither for the namespace nor with the retain flag given; the bytes after its 48-byte header are returned, unless Windows reports an error (that error, no bytes) or the header is not as expected (\"invalid response header\").", "quantifier": "every drive, argument and behaviour of Windows", "why_tests_cant": "All sizes and replies.", "anchors": ["common/drive_handle.go NvmeGetLogPage", "plat_win/windows_nvme_driver.go NvmeGetLogPage", "plat_win/nvme_win_driver.go"]}
{"id": "C140", "title": "No descriptor is used after it was closed (Linux)", "statement": "A client may call OpenByPath, EnumDrives, EnumVolumes, OpenDriveByVolumePath, OpenDriveByPartition and, on any handle it was given, open or closed, Close, GetDrivingType, GetDriverName, AtaDoTaskFileCmd, NvmeGetLogPage, SecurityCommand, TcgDiscovery0, RevertTPer, GetDefaultPassword and the calls on sessions (Start, Authenticate, SendCommand and Exec with commands of the caller's own making, OpalGetTable, EnterpriseGetTable, Close), in any order and number, and recover from panics. Provided the operating system never returns from open a descriptor that is still open, every system call of the library that works on a descriptor or closes it is made while that descriptor is open: nothing is used after closing and nothing is closed twice. At every moment each handle with a driver has a descriptor of its own, which is open and which no other handle has.", "quantifier": "every finite sequence of calls, and every behaviour of the system", "why_tests_cant": "All interleavings of calls on any number of handles; a test fixes one history.", "anchors": ["plat_linux/drive_factory.go", "plat_linux/volume.go", "plat_linux/nvme_driver.go", "plat_linux/sg_driver.go", "common/drive_handle.go", "tcg/device_opal.go", "tcg/device_enterprise.go"]}
{"id": "C141", "title": "What stays open (Linux)", "statement": "In any such sequence of calls without EnumVolumes in which the calls that open drives did not panic and every drive they reported was accepted by a driver, the open descriptors are exactly those of the handles the client holds and has not closed: enumerations and failed openings leave nothing open, and Close gives the descriptor back. After closing every handle nothing is open.", "quantifier": "every finite sequence of calls, and every behaviour of the system", "why_tests_cant": "As C140.", "anchors": ["plat_linux/drive_factory.go", "plat_linux/nvme_driver.go Close", "plat_linux/sg_driver.go Close", "common/drive_handle.go Close"]}
{"id": "C142", "title": "A drive nobody accepts costs a descriptor (Linux)", "statement": "In any such sequence of calls in which no call that opens drives, EnumVolumes apart, panicked, the number of open descriptors is the number of handles with a driver the client holds, plus the number of drives without a driver ever reported, plus the number of devices that calls of EnumVolumes opened: each opening or enumeration of a drive that no driver accepts, and each device EnumVolumes looks at, leaves one descriptor open that no later call, Close included, gives back.", "quantifier": "every finite sequence of calls, and every behaviour of the system", "why_tests_cant": "A leak shows only over histories.", "anchors": ["plat_linux/drive_factory.go OpenByPath EnumDrives", "plat_linux/volume.go EnumVolumes", "common/drive_handle.go Close"]}
{"id": "C143", "title": "No handle is used after it was closed (Windows)", "statement": "A client may call OpenByPath, EnumDrives, EnumVolumes, OpenDriveByVolumePath, OpenDriveByPartition and, on any handle it was given, open or closed, Close, GetDrivingType, GetDriverName, AtaDoTaskFileCmd, NvmeGetLogPage, SecurityCommand, TcgDiscovery0, RevertTPer, GetDefaultPassword and the calls on sessions (Start, Authenticate, SendCommand and Exec with commands of the caller's own making, OpalGetTable, EnterpriseGetTable, Close), in any order and number, and recover from panics. Provided Windows never hands out a handle that is still open, every call of Windows that works on a device handle, a device information list or a volume search, or gives it back, is made while that is open. At every moment each drive handle with a driver has Windows handles of its own, all open, and no other drive handle has them.", "quantifier": "every finite sequence of calls, and every behaviour of Windows", "why_tests_cant": "All interleavings of calls on any number of handles; a test fixes one history.", "anchors": ["plat_win/drive_factory.go", "plat_win/volume.go", "plat_win/utils.go", "plat_win/ata_driver.go", "plat_win/scsi_driver.go", "plat_win/nvme_win_driver.go", "plat_win/windows_nvme_driver.go", "common/drive_handle.go"]}
{"id": "C144", "title": "What stays open (Windows)", "statement": "In any such sequence of calls in which the calls that open drives or volumes returned and every drive they reported was accepted by a driver other than the vendor miniport driver, what is open is exactly the handles of the drive handles the client holds and has not closed; after closing every handle nothing is open.", "quantifier": "every finite sequence of calls, and every behaviour of Windows", "why_tests_cant": "As C143.", "anchors": ["plat_win/drive_factory.go", "plat_win/volume.go", "plat_win/ata_driver.go", "plat_win/scsi_driver.go", "plat_win/windows_nvme_driver.go", "common/drive_handle.go Close"]}
{"id": "C145", "title": "What leaks (Windows)", "statement": "In any such sequence of calls in which the calls that open drives or volumes returned, every device information list and every volume search is given back, and the number of open handles is the number of drive handles with a driver the client holds, plus one for every drive without a driver and one for every drive of the vendor miniport driver that was ever reported: those handles are never given back, by Close neither.", "quantifier": "every finite sequence of calls, and every behaviour of Windows", "why_tests_cant": "A leak shows only over histories.", "anchors": ["plat_win/drive_factory.go OpenByPath EnumDrives", "plat_win/volume.go EnumVolumes", "plat_win/nvme_win_driver.go", "common/drive_handle.go Close"]}
{"id": "C146", "title": "Goroutines with their own handles do not touch each other's drives", "statement": "Any number of goroutines that share no handle, each making any sequence of calls of the API, under any schedule of their system calls: every system call that works on a descriptor (Linux) or on a device, volume, device list or search handle (Windows), or closes it, works on one that the same goroutine has obtained and not closed, and that no other goroutine has.", "quantifier": "every number of goroutines, every sequence of calls of each, every schedule, and every behaviour of the system that does not hand out what is still open", "why_tests_cant": "Schedules cannot be enumerated by tests, and descriptors are reused: a close one call too late would hit another goroutine's drive only under rare interleavings.", "anchors": ["plat_linux/drive_factory.go", "plat_linux/nvme_driver.go", "plat_linux/sg_driver.go", "plat_win/drive_factory.go", "plat_win/volume.go", "common/drive_handle.go"]}
{"id": "C147", "title": "Goroutines do not influence each other", "statement": "Under any schedule, what a goroutine does and obtains is what it would do and obtain alone on a system that gives the same answers: the same system calls in the same order, the same results, the same handles. No schedule can keep a goroutine from ending: given enough steps it ends.", "quantifier": "every number of goroutines, every sequence of calls of each, every schedule, and every behaviour of the system that does not hand out what is still open", "why_tests_cant": "As C146.", "anchors": ["plat_linux/drive_factory.go", "plat_win/drive_factory.go", "common/drive_handle.go"]}
{"id": "C148", "title": "What stays open when goroutines have ended", "statement": "When all goroutines have ended and the calls that open drives went well (as in C141 and C144), what is open in the process is exactly the handles of the drive handles that the goroutines hold and have not closed, each held by one goroutine only.", "quantifier": "every number of goroutines, every sequence of calls of each, every schedule, and every behaviour of the system that does not hand out what is still open", "why_tests_cant": "As C146.", "anchors": ["plat_linux/drive_factory.go", "plat_win/drive_factory.go", "common/drive_handle.go Close"]}
{"id": "C149", "title": "The error mode of the process (Windows)", "statement": "EnumVolumes changes the error mode of the whole process while it runs; no other call does. A client alone: when its calls have ended, also with errors or panics, the error mode is what it was before. Goroutines, at any time under any schedule: the error mode is the one before or SEM_FAILCRITICALERRORS; if only one goroutine enumerates volumes and it has ended, the mode is the one before, whatever the others do. Two goroutines that enumerate volumes at the same time can leave the process with SEM_FAILCRITICALERRORS, on every Windows.", "quantifier": "every sequence of calls, every number of goroutines and every schedule, on every Windows whose SetErrorMode returns the mode before", "why_tests_cant": "The deferred restore runs on every way out, and whether it restores the right mode depends on the schedule.", "anchors": ["plat_win/volume.go EnumVolumes"]}
{"id": "C150", "title": "Who can revert a drive that several clients use at once", "statement": "Any number of goroutines (or programs), each making any sequence of RevertTPer and GetDefaultPassword calls on one conforming Opal drive, under any schedule of their exchanges with the drive and stopped at any point: if nobody calls RevertTPer with a right password and no session of SID or PSID was open before, then at every moment the drive was not reverted and its password is unchanged. In any case at every moment the drive has its old password and was not reverted, or it has its MSID and was reverted, at most once per call of RevertTPer; and never more sessions are open than it allows or had at the start.", "quantifier": "every conforming drive, every number of goroutines, every sequence of calls of each (any password, PSIDs of up to 400 bytes), every schedule and every point at which they stop", "why_tests_cant": "A drive has one place for the answer to a ComID and the library takes no lock: goroutines get each other's answers and continue each other's sessions. Interleavings cannot be enumerated by tests.", "anchors": ["tcg/device.go Exec", "tcg/session.go Start SendCommand", "tcg/device_opal.go revertTPer getDefaultPassword", "tcg/device_enterprise.go RevertTPer GetDefaultPassword"]}
{"id": "C151", "title": "RevertTPer and GetDefaultPassword are truthful when they are not disturbed", "statement": "After anything any goroutines did, also if they were stopped in the middle: when a goroutine calls RevertTPer and nobody else uses the drive until it returns, it returns nil only if the password was right and the drive is now in factory state; with a wrong password it returns an error and the drive keeps its password and was not reverted; with a right password it returns nil if the drive has a session left and nothing takes longer than 10 s. In the same way GetDefaultPassword returns the MSID if the drive has a session left and otherwise an error, and changes neither password nor factory state.", "quantifier": "every conforming drive, every history before the call, every password and every PSID of up to 400 bytes", "why_tests_cant": "As C150: what earlier goroutines left in the drive (an answer nobody fetched, open sessions) is unbounded.", "anchors": ["tcg/device.go Exec", "tcg/session.go Start SendCommand", "tcg/device_opal.go revertTPer"]}
{"id": "C152", "title": "TCG operations are not safe for concurrent use on one drive (limit)", "statement": "There are schedules of two goroutines on a conforming drive in which RevertTPer with a wrong password returns nil although the drive was never reverted, and schedules in which RevertTPer with a wrong password reverts the drive, in the session another goroutine has opened with the right password but not yet used, and schedules in which GetDefaultPassword returns, without error, the number of another goroutine's session in place of the MSID. Callers have to serialise.", "quantifier": "existence, for the three kinds of failure", "why_tests_cant": "The schedules are rare and need the right timing.", "anchors": ["tcg/device.go Exec", "tcg/session.go Start", "tcg/device_opal.go revertTPer"]}
{"id": "C153", "title": "Any history of calls on one session object", "statement": "A TcgSession can be used for any sequence of Start, Authenticate, SendCommand, Close, NoAutoClose, SetTimeout, SetNoHashPassword and IsNoHashPassword calls. SetTimeout, NoAutoClose and Close have no effect: leaving them out changes neither the conversation with the drive nor any result. The credential a Start or Authenticate sends is hashed unless the last SetNoHashPassword turned that off, and IsNoHashPassword tells which. Before the first Start everything is sent with session numbers 0 and 0; after a Start that returned nil, and until the next Start is answered, everything (also a second Start) is sent with the two numbers of its reply.", "quantifier": "every device, every history of calls, every behaviour of the drive and the clock", "why_tests_cant": "The state of the object is the result of an unbounded history of calls and replies.", "anchors": ["tcg/session.go NewTcgSession Start Authenticate SendCommand Close SetNoHashPassword IsNoHashPassword NoAutoClose SetTimeout"]}
{"id": "C154", "title": "A session object is good for one session (limit)", "statement": "On a conforming Opal drive where nothing takes longer than 10 s, every history of Start calls (Admin SP), reads of the MSID, Close and settings on one new session object opens at most one session. The Starts before it fail and change nothing on the drive; after the one that returned nil, every further Start on the same object fails with TCG status 12, also with the right password and also after Close, because it is sent inside the old session, while reads of the MSID succeed. When that session has ended on the drive (after a Revert), no call on the object has any effect on the drive. Callers need a new object for every session.", "quantifier": "every conforming drive and device, every history of such calls, every password of up to 400 bytes", "why_tests_cant": "The failing case needs a drive that checks session numbers and a second Start on the same object; histories are unbounded.", "anchors": ["tcg/session.go Start SendCommand Close"]}
{"id": "C155", "title": "Calls that only look write to no drive (Linux)", "statement": "In any sequence of calls a client makes (as in C140: all orders, closed handles, recovered panics), every call other than AtaDoTaskFileCmd, SecurityCommand, RevertTPer, GetDefaultPassword and the calls on sessions makes system calls only, and each one that reaches a drive reads: NVMe Identify, Get Log Page or Security Receive of protocol 1 for ComID 1, or, through the SCSI generic driver, IDENTIFY DEVICE, TRUSTED RECEIVE or SECURITY PROTOCOL IN of protocol 1 for ComID 1 with the transfer from the device. So a client that makes no other calls writes to no drive.", "quantifier": "every finite sequence of calls, and every behaviour of the system", "why_tests_cant": "A write could hide behind any state of the handles and any answer of the system.", "anchors": ["common/drive_handle.go", "plat_linux/drive_factory.go", "plat_linux/volume.go", "plat_linux/nvme_driver.go", "plat_linux/sg_driver.go"]}
{"id": "C156", "title": "The development tool (Linux)", "statement": "However it ends, the tool cmd/develop only reads from drives. It crashes whenever /dev/nvme0n1 cannot be opened, and returns if that works and the stages before return. When it returns, its last system call on a drive of the NVMe driver was one Get Log Page for the SMART log of all namespaces, of 129 dwords into a 516-byte buffer (unsafe.Sizeof counts padding; the log has 512 bytes), and it shows that buffer and the error; on other drives it shows the error \"not supported in this driver\". It closes nothing: open at its end are /dev/sda if it could be opened, /dev/nvme0n1, one descriptor for every enumerated drive without driver and one for every device EnumVolumes opened.", "quantifier": "every mount table and every behaviour of the system", "why_tests_cant": "The tool runs on whatever system it finds.", "anchors": ["cmd/develop/main_linux.go main", "nvme/types.go SmartLogPage", "plat_linux/drive_factory.go OpenByPath"]}
{"id": "C157", "title": "Calls that only look write to no drive (Windows)", "statement": "In any sequence of calls a client makes on Windows (as in C143), every call other than AtaDoTaskFileCmd, SecurityCommand, RevertTPer, GetDefaultPassword and the calls on sessions makes Windows calls only, and every control request among them reads: an inquiry, a property query with query type 0, an ATA or SCSI pass-through that transfers from the device with IDENTIFY DEVICE, TRUSTED RECEIVE or SECURITY PROTOCOL IN of protocol 1 for ComID 1, or a miniport request with Identify or Security Receive. EnumVolumes, and no other of these calls, changes the process's error mode. So a client that makes no other calls writes to no drive.", "quantifier": "every finite sequence of calls, and every behaviour of Windows", "why_tests_cant": "As C155.", "anchors": ["common/drive_handle.go", "plat_win/drive_factory.go", "plat_win/volume.go", "plat_win/windows_nvme_driver.go NvmeGetLogPage", "plat_win/nvme_win_driver.go", "plat_win/scsi_driver.go", "plat_win/ata_driver.go"]}
{"id": "C158", "title": "The development tool (Windows)", "statement": "However it ends, the tool cmd/develop only reads from drives (and changes the process's error mode). It needs no drive: where nothing can be opened or enumerated it returns after five calls of Windows. When it returns, the error mode is what it was, device lists and searches are given back, and nothing is closed of what it opened itself: open are the drive it opened, if it could, every enumerated drive without driver, and the second handle of every drive of the miniport driver.", "quantifier": "every behaviour of Windows", "why_tests_cant": "The tool runs on whatever system it finds.", "anchors": ["cmd/develop/main.go main", "plat_win/drive_factory.go OpenByPath EnumDrives", "plat_win/volume.go EnumVolumes"]}
{"id": "C159", "title": "Without the password, nothing the API offers moves the drive (Linux)", "statement": "Any number of goroutines make any calls of the API in any order (opening, enumerating, closing, task files, log pages, SecurityCommand, TCG operations, sessions; closed handles and recovered panics included), and may stop anywhere. If no packet the caller makes itself, sent by SecurityCommand or through a session, is a StartSession for the drive's ComID that presents the PSID as PSID or the SID credential as SID, and RevertTPer is called only with wrong passwords (as PSID: not the PSID; as SID: the derived key is not the SID credential), however long, and no session of SID or PSID was open at the start, then the drive is not reverted, its SID credential is not changed and no session of SID or PSID is opened. The drive may lose or refuse packets; AtaDoTaskFileCmd with a TRUSTED SEND command is harmless only because the driver overwrites the data with zeros (C58).", "quantifier": "every number of goroutines, every call sequence, schedule and stopping point, every behaviour of the system and the drive's transport, every password of any length", "why_tests_cant": "Guards against unbounded histories and all interleavings; a unit test sees one drive and one sequence.", "anchors": ["common/drive_handle.go", "tcg/session.go Start SendCommand Authenticate", "tcg/device_opal.go RevertTPer", "tcg/device_enterprise.go", "plat_linux/sg_driver.go", "plat_linux/nvme_driver.go"]}
{"id": "C160", "title": "Without the password, nothing the API offers moves the drive (Windows)", "statement": "C159 on Windows, with the calls of C143: any number of goroutines, any calls, schedules and answers of Windows. If no packet the caller makes itself (shorter than 4 GiB) presents the PSID or the SID credential to the drive, RevertTPer is called only with wrong passwords and no session of SID or PSID was open at the start, then the drive is not reverted, its SID credential is not changed and no session of SID or PSID is opened. (Through every driver but the miniport one nothing but zeros is sent at all, C73.)", "quantifier": "every number of goroutines, every call sequence, schedule and stopping point, every behaviour of Windows and the drive's transport, every password of any length", "why_tests_cant": "As C159.", "anchors": ["common/drive_handle.go", "tcg/session.go Start SendCommand", "tcg/device_opal.go RevertTPer", "plat_win/nvme_win_driver.go", "plat_win/windows_nvme_driver.go", "plat_win/scsi_driver.go", "plat_win/ata_driver.go"]}
{"id": "C161", "title": "Partitions through the Partition interface", "statement": "For every partition of a volume that EnumVolumes reported, on both platforms, and of an opened drive on Windows: GetMbrInfo is non-nil exactly if GetPartitionStyle is MBR, GetGptInfo exactly if it is GPT, and its two identifiers are in braces and without small letters. A volume has at most one partition. On Linux the style is never raw, and GetSize equals GetStart (C91); on Windows start and size are those of the volume's first extent, and the partitions of a drive all have the style of the drive, which is then not raw.", "quantifier": "every mount table, partition table, volume and behaviour of the system", "why_tests_cant": "The system and the partition table are arbitrary.", "anchors": ["common/types.go Partition", "plat_linux/volume.go GetStart GetSize GetPartitionStyle GetMbrInfo GetGptInfo", "plat_win/volume.go GetStart GetSize GetPartitionStyle GetMbrInfo GetGptInfo", "plat_win/utils.go ReadBasicInfo"]}
{"id": "C162", "title": "What can crash a program on Linux", "statement": "After any calls, whatever the system and the drives answer, a call of the API panics only for one of these reasons: opening, enumerating or TcgDiscovery0 meets a drive whose discovery data announces at most 2048 bytes but whose descriptors run over the announced end; EnumVolumes meets a mounted partition with number 0 on a drive with a partition table; GetDrivingType or GetDriverName of a handle without driver (closed, or no driver accepted the drive); AtaDoTaskFileCmd or SecurityCommand with a buffer of no bytes (not nil) on a SCSI generic drive, before anything is sent; RevertTPer, GetDefaultPassword, Start, Authenticate, SendCommand, OpalGetTable or EnterpriseGetTable for an Opal device whose last answer from the drive is too short. Close never panics, nor NvmeGetLogPage with a size that is not negative, nor Close of a session, nor Exec. For the methods of a handle the reasons are exact. Every call other than RevertTPer, GetDefaultPassword and those on sessions ends.", "quantifier": "every sequence of calls, every behaviour of system and drives", "why_tests_cant": "Absence of panics ranges over all call histories and all answers.", "anchors": ["common/drive_handle.go", "plat_linux/drive_factory.go", "plat_linux/volume.go", "plat_linux/sg_driver.go", "plat_linux/nvme_driver.go", "tcg/session.go", "tcg/device_opal.go"]}
{"id": "C163", "title": "What can crash a client on Windows", "statement": "After whatever sequence of library calls on Windows, and whatever Windows and the drives answer, a further call panics only for a reason of a closed list that names the answer or argument at fault: an open (by path, volume or partition, or within the enumeration, which still closes what it opened) panics only on a partition layout or storage descriptor that cannot be fetched, is too short, mixes styles or has an offset behind its end, or on malformed discovery data; the enumeration also on a device detail size that is 0 when rounded up; enumerating volumes only on a mount point text without end or more than 171 extents; GetDrivingType and GetDriverName exactly on a handle without driver; an ATA command exactly with nil or empty data on a drive of an ATA-capable driver; SecurityCommand exactly with an empty buffer on a driver other than the miniport one; reading discovery data again exactly when the data read is malformed; RevertTPer, GetDefaultPassword and the calls on sessions only on Opal devices after an accepted answer of the drive, read with a TCG request, that is too short. Close, NvmeGetLogPage, Close of a session and Exec never panic. Every call but EnumDrives, EnumVolumes, RevertTPer, GetDefaultPassword and those on sessions ends.", "quantifier": "every sequence of calls, every behaviour of Windows and drives, every address of buffers", "why_tests_cant": "Absence of panics ranges over all call histories and all answers.", "anchors": ["common/drive_handle.go", "plat_win/drive_factory.go", "plat_win/volume.go", "plat_win/scsi_driver.go", "plat_win/ata_driver.go", "plat_win/nvme_win_driver.go", "plat_win/windows_nvme_driver.go", "tcg/session.go", "tcg/device_opal.go"]}
{"id": "C164", "title": "Every call ends within a known number of system calls (Linux)", "statement": "On a system whose clock does not run backwards and whose sleeps last as long as asked, every call of the Linux API, on whatever handles and after whatever history, comes to an end, and makes at most: to open a drive 17 system calls and one for each name listed in /dev/disk/by-id; to enumerate drives 1, 19 for each name in /sys/block and one for each name listed in /dev/disk/by-id; to enumerate volumes 6 for each line of the mount table; Close 1; GetDrivingType and GetDriverName none; AtaDoTaskFileCmd 2; NvmeGetLogPage one per 4096 bytes begun; SecurityCommand and TcgDiscovery0 4; RevertTPer and GetDefaultPassword 2 exchanges of at most 403 security commands; a call on a session one such exchange, Close of a session none. A program comes to the end of any sequence of calls, and its system calls add up to at most the sum.", "quantifier": "every system with a clock, every behaviour of drives, every handle, history and sequence of calls", "why_tests_cant": "Termination and cost range over all answers of the system and drives, which decide how long polling goes on.", "anchors": ["plat_linux/drive_factory.go", "plat_linux/volume.go", "plat_linux/sg_driver.go", "plat_linux/nvme_driver.go", "common/drive_handle.go", "common/nvme/default.go", "tcg/device.go Exec", "tcg/session.go"]}
{"id": "C165", "title": "Every call ends within a known number of API calls (Windows)", "statement": "On a Windows whose clock does not run backwards and whose sleeps last as long as asked, with at most n disks and n volumes, every call of the Windows API of the library, on whatever handles and after whatever history, comes to an end, and makes at most: to open a drive 16 calls of the Windows API; to enumerate drives 3 + 21 n; to enumerate volumes 4 + 8 n; Close 1; GetDrivingType and GetDriverName none; AtaDoTaskFileCmd 2; NvmeGetLogPage 1; SecurityCommand and TcgDiscovery0 4; RevertTPer and GetDefaultPassword 2 exchanges of at most 403 security commands; a call on a session one such exchange, Close of a session none. A program comes to the end of any sequence of calls, and its API calls add up to at most the sum.", "quantifier": "every such Windows, every behaviour of drives, every handle, history, sequence of calls, and n", "why_tests_cant": "Termination and cost range over all answers of Windows and drives, which decide how long polling and enumerations go on.", "anchors": ["plat_win/drive_factory.go", "plat_win/volume.go", "plat_win/utils.go", "plat_win/scsi_driver.go", "plat_win/ata_driver.go", "plat_win/nvme_win_driver.go", "plat_win/windows_nvme_driver.go", "common/drive_handle.go", "tcg/device.go Exec", "tcg/session.go"]}
{"id": "C166", "title": "Reading a table asks for exactly the range named", "statement": "OpalGetTable on an Opal device, with any session, table UID and pair of column numbers, sends exactly one command, to the drive the session belongs to (whatever device the method is called on), which a drive reads as Get of exactly that table and exactly those columns under the session's numbers; EnterpriseGetTable likewise with non-empty column names that fit into the packet. What is returned is the drive's accepted answer as parsed; otherwise an error, or a panic on an accepted message too short for a status. Generic and Enterprise devices refuse OpalGetTable, and nothing is ever sent in a session of a device that is not Opal. On a conforming drive, in an open session, the PIN column of C_PIN_MSID can be read (the fifth token of the answer is the drive's MSID), every other range is refused with the drive's status, and the drive is left as it was.", "quantifier": "every device, session, table UID, column range and drive behaviour; every conforming drive", "why_tests_cant": "All tables, columns and drive answers.", "anchors": ["tcg/device_opal.go opalGetTable", "tcg/device_enterprise.go EnterpriseGetTable", "tcg/device.go OpalGetTable", "tcg/session.go SendCommand"]}
{"id": "C167", "title": "Guessing in sessions moves nothing", "statement": "A caller without the key uses the ready-made session calls: Start for any SP with a UID as authority and any challenge that is not, as presented (raw, or as derived key), the PSID for PSID or the SID credential for SID; Authenticate with any authority below 20000 bytes and any challenge; OpalGetTable and EnterpriseGetTable of any table UID; Close; and SendCommand and Exec with commands of its own for other ComIDs or protocols. Whatever state the session objects are in and whatever the drive answers, no packet sent is one a drive reads as StartSession with its key. So with C159 and C160: any number of goroutines that make such calls, and whatever other calls of the API (SecurityCommand not with protocol 1 to the drive's ComID, RevertTPer with wrong passwords), under any schedule, do not revert the drive, change its SID credential or get a session of SID or PSID.", "quantifier": "every device, session state, SP, authority, challenge and answer; every number of goroutines, call sequence, schedule and behaviour of the system, on Linux and Windows", "why_tests_cant": "All challenges, authorities and answers; all interleavings.", "anchors": ["tcg/session.go Start", "tcg/session.go Authenticate", "tcg/session.go SendCommand", "tcg/device.go Exec", "tcg/device_opal.go opalGetTable", "tcg/device_enterprise.go EnterpriseGetTable"]}
{"id": "C168", "title": "Sessions on a conforming drive, from opening it on", "statement": "On a conforming Opal drive where nothing takes longer than 10 s, Start of the Admin SP on a new session object, with any password and authority UID: while the drive has a session left it returns nil exactly if nothing is presented (empty password), or what is presented (the password itself, or the derived key) is the PSID under the PSID authority, or the SID credential under the SID authority; then exactly one session was opened, writing, for that authority, and the object speaks in it. Otherwise TCG error 1 (7 if no session is left) and the drive is unchanged. In an open session OpalGetTable of the PIN column of C_PIN_MSID returns the MSID and every other range is refused, and a Revert command the caller builds and sends resets the drive exactly in a session of SID or PSID, otherwise TCG error 1 and the drive is unchanged. All this, and C154, holds on Linux from opening the node on, over the NVMe driver and over the SCSI generic driver, at any later time.", "quantifier": "every conforming drive, password (up to 400 bytes if presented raw), authority, table, column range, history and session", "why_tests_cant": "All passwords, drive states, histories and system behaviours outside the drive.", "anchors": ["tcg/session.go Start", "tcg/session.go SendCommand", "tcg/device_opal.go opalGetTable", "plat_linux/drive_factory.go OpenByPath", "plat_linux/nvme_driver.go", "plat_linux/sg_driver.go"]}
{"id": "C169", "title": "SMART data through an opened drive", "statement": "ReadSmart on a drive the Linux or Windows factory opened, for any timeout and any system: on an NVMe drive and on a drive without driver it returns the error \"not supported in this driver\" without any request. On a SCSI generic drive (Linux) and on a drive of the ATA or SCSI driver (Windows) it sends SMART READ DATA (B0h/D0h, one sector, key 4Fh/C2h) as one ATA command as C132/C138 say, and only if that succeeded SMART READ THRESHOLDS (D1h); the first error is returned and nothing else is sent after it; otherwise the 30 attribute values are those of the first sector and the 30 thresholds those of the second. It never panics. If the drive answers both commands with success, ReadSmart succeeds after exactly two requests with exactly the attributes in the drive's two sectors.", "quantifier": "every opened drive of every kind, timeout, system behaviour and history; every pair of sectors", "why_tests_cant": "All sectors and all behaviours of the system at every request.", "anchors": ["ata_util/utils.go ReadSmart", "common/drive_handle.go AtaDoTaskFileCmd", "plat_linux/sg_driver.go", "plat_win/ata_driver.go", "plat_win/scsi_driver.go"]}
{"id": "C170", "title": "The records the Linux drivers hand the kernel, byte for byte", "statement": "The memory the library hands to its ioctls on Linux is what the kernel's own C records say: read by include/uapi/linux/nvme_ioctl.h, with the record size in the ioctl number, the 72 bytes of an admin or I/O command are exactly the caller's command and buffer address (and, for I/O commands, a data length 0), and the 48 bytes of DoNvmeIo are exactly the caller's request; read by include/scsi/sg.h, every round of an ATA or SCSI security command is interface 'S', no scatter list, no flags, the direction, CDB, data memory, length, timeout and pack id C132 speaks of, and a sense buffer inside the same record, so that whatever status, sense bytes and other output fields the kernel writes there, after the first and after the second round, the library reads back exactly status and sense data.", "quantifier": "every command, buffer, address of record, CDB, slice header and buffers, timeout, answer of the kernel and content of the other output fields", "why_tests_cant": "All field values, addresses and kernel answers; the layout is compiled from Go struct definitions.", "anchors": ["plat_linux/nvme_driver.go DoNvmeAdminPassthru", "plat_linux/nvme_driver.go DoNvmeIoPassthru", "plat_linux/nvme_driver.go DoNvmeIo", "plat_linux/nvme_types.go", "plat_linux/nvme_ioctl.go", "plat_linux/sg_driver.go doTaskFileCmd", "plat_linux/sg_driver.go scsiSecurityCommand", "plat_linux/sg_types.go"]}
{"id": "C171", "title": "What a recovered panic leaves behind", "statement": "A caller recovers from a panic of TcgDiscovery0, Start, Authenticate, SendCommand or Close and looks at the object. Under recover every one of these sends and returns exactly what it does otherwise, with the same object. Where discovery panics because a descriptor does not fit into the buffer, the handle reports TCG support, exactly the flags it had or the complete descriptors before that one report, for each of their codes the complete last descriptor, and is otherwise as before, so it can be used on; on a handle without a table of raw features exactly the flag of the first descriptor is left and no raw feature. Where a call on a session panics, the session object is exactly as it was before the call: in particular Start never leaves one new session number beside an old one by a panic.", "quantifier": "every handle, response and number of descriptors before the overrun; every session state, device, call and behaviour of the drive", "why_tests_cant": "All responses and all points of the code at which it can panic.", "anchors": ["common/drive_handle.go TcgDiscovery0", "tcg/session.go Start", "tcg/session.go Authenticate", "tcg/session.go SendCommand", "tcg/session.go Close"]}
{"id": "C172", "title": "A session object used on after recovered panics", "statement": "Any sequence of calls is made on a new session object, each under recover, whatever the drive answers. The sequence does not end in a panic. As long as every Start panicked, everything sent carries the session numbers 0 and 0; after a Start that returned nil everything sent carries the two numbers of its reply, until another Start returns, whatever panics in between. A Start or Authenticate sends one packet, with the password unhashed exactly if the last SetNoHashPassword, panics or not, turned hashing off, and IsNoHashPassword tells.", "quantifier": "every sequence of calls of any length, device, behaviour of the drive and position of the panics", "why_tests_cant": "All histories and all drive behaviours.", "anchors": ["tcg/session.go Start", "tcg/session.go Authenticate", "tcg/session.go SendCommand", "tcg/session.go Close", "tcg/session.go SetNoHashPassword", "tcg/session.go IsNoHashPassword"]}
{"id": "C173", "title": "Texts between Go and Windows", "statement": "A text that Windows delivers (device paths, volume names, drive letters, file systems) arrives as its UTF-8, up to the NUL that ends it; a text given to Windows, in UTF-8 without NUL, is seen there as its UTF-16, and a text with a NUL is refused. A text received and given back is the same text, character for character, and two different texts stay different. So EnumDrives opens each device under exactly the name its detail record has, and OpenDriveByVolumePath of a name EnumVolumes listed, with or without a backslash, is about the first volume Windows listed under that name, and no other. The exception: unpaired surrogates, which NTFS names may contain, are replaced by Go versions before 1.21; from 1.21 on the statements hold for them, too.", "quantifier": "every text of 16-bit characters of any length, both Go behaviours, every device and every list of volumes", "why_tests_cant": "All texts; the encodings have four forms and surrogates.", "anchors": ["plat_win/utils.go OpenDevice", "plat_win/drive_factory.go EnumDrives", "plat_win/volume.go EnumVolumes", "plat_win/volume.go OpenDriveByVolumePath"]}
{"id": "C174", "title": "TCG operations on a conforming drive through the Windows miniport driver", "statement": "The reference drive of C127 behind the SCSI miniport of Windows: the factory's miniport driver drives it, and it was recognised as an Opal device with the drive's own ComID. RevertTPer with the PSID succeeds exactly if the password is the drive's PSID, with the SID exactly if the drive's SID credential is the hash of the non-empty password; after success the drive is in factory state, after failure (TCG error 1) credential and content are unchanged. However slow the drive and however many sessions are open, success is only reported in factory state with the right password, and a wrong password never reverts it. GetDefaultPassword returns the MSID while a session is left, and uses one up for good. Every packet the drive has to understand fits into the 4096 bytes a miniport request carries.", "quantifier": "every conforming drive, history, password, device state and number of open sessions", "why_tests_cant": "All drives and histories; the outcome depends on the drive's state across system calls.", "anchors": ["plat_win/nvme_win_driver.go", "tcg/device_opal.go RevertTPer", "tcg/device_opal.go GetDefaultPassword", "tcg/session.go Start", "tcg/command.go"]}
{"id": "C175", "title": "TCG operations from opening the path on, on a conforming drive behind the Windows miniport", "statement": "As C130 on Windows: take an adapter on which the SCSI miniport answers NVMe Security Send and Receive as a conforming Opal drive with base ComID c would, and level 0 discovery with descriptors naming c. If the path opens as a disk at that adapter (whatever port number Windows names), its drive layout is refused or complete with entries of the table's own style, and the miniport executes Identify, then whatever the rest of the system answers OpenByPath returns a drive of the miniport driver on the adapter's handle. Whenever it returns one, NewTcgDevice on it finds an Opal device with base ComID c, opening did not change the drive's TCG state, and from then on, at any time and whatever else was asked in between: RevertTPer with the PSID succeeds and leaves factory state, with another password fails with error 1 and reverts nothing; RevertTPer with the SID succeeds exactly when the SID credential is D0 20 and the key derived from the non-empty password and the opened drive's serial; GetDefaultPassword returns the MSID while a session is left, then error 7. Without any assumption on the clock, success is never reported unless the drive is in factory state and the password was right.", "quantifier": "every conforming drive and behaviour of Windows otherwise, every path, password (PSIDs up to 400 bytes) and history", "why_tests_cant": "Only the real stack on Windows with a real drive runs all layers together, and reverting is destructive.", "anchors": ["plat_win/drive_factory.go OpenByPath", "plat_win/nvme_win_driver.go", "plat_win/utils.go ReadBasicInfo", "common/drive_handle.go Init TcgDiscovery0 SecurityCommand", "tcg/device.go NewTcgDevice Exec", "tcg/device_opal.go RevertTPer GetDefaultPassword", "tcg/session.go"]}
{"id": "C176", "title": "Sessions on a conforming drive behind the Windows miniport, from opening it on", "statement": "As C168 on Windows: on a drive the Windows factory opened, at some time and under some path, on a conforming Opal drive behind the miniport driver, where nothing takes longer than 10 s, at any later time: Start of the Admin SP on a new session object, with any password and authority UID, while the drive has a session left returns nil exactly if nothing is presented (empty password), or what is presented is the PSID under the PSID authority, or the SID credential under the SID authority; then exactly one session was opened, writing, for that authority, and the object speaks in it. Otherwise TCG error 1 (7 if no session is left) and the drive is unchanged. In an open session OpalGetTable of the PIN column of C_PIN_MSID returns the MSID and every other range is refused; a Revert command the caller sends resets the drive exactly in a session of SID or PSID, otherwise TCG error 1 and the drive is unchanged; and any history of calls on one session object opens at most one session, after which every further Start fails (C154).", "quantifier": "every conforming drive, password (up to 400 bytes if presented raw), authority, table, column range, history and session", "why_tests_cant": "All passwords, drive states, histories and system behaviours outside the drive.", "anchors": ["tcg/session.go Start", "tcg/session.go SendCommand", "tcg/device_opal.go opalGetTable", "plat_win/drive_factory.go OpenByPath", "plat_win/nvme_win_driver.go"]}
{"id": "C177", "title": "Any history of operations on a conforming drive", "statement": "On a conforming Opal drive where nothing takes longer than 10 s, any sequence of RevertTPer and GetDefaultPassword calls, with any passwords, returns call by call what a ledger of three numbers says (SID credential, open sessions, reverts), and leaves the drive as it says: with no session left every call returns TCG error 7; a revert with the right password returns nil, sets the credential to the MSID and frees all sessions; with a wrong one it returns error 1 and costs nothing, with an empty one error 1 and a session for good; GetDefaultPassword returns the MSID and costs a session. If the program is stopped after any exchange (on a drive that a fetch without a waiting answer does not change), credential and number of reverts are what the ledger says after some number of the calls. So the drive was reverted exactly as often as RevertTPer returned nil, and once it is in factory state with an MSID not of 34 bytes, no history without the PSID reverts it again, though the MSID is then its SID credential. The ledger also holds on Linux and Windows from opening on, over the NVMe, SCSI generic and Windows miniport drivers.", "quantifier": "every conforming drive, initial state, sequence of calls of any length, passwords (PSIDs up to 400 bytes) and point at which the program is stopped", "why_tests_cant": "All sequences of calls and all points to stop at; the outcome of each call depends on all before.", "anchors": ["tcg/device_opal.go RevertTPer", "tcg/device_opal.go GetDefaultPassword", "tcg/session.go Start", "tcg/session.go Close"]}
