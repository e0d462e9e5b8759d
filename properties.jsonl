{"id": "C01", "title": "Escaping is undone by unescaping", "statement": "For every byte string d that ends with 0x0D, escape_characters(d) succeeds and return_characters(escape_characters(d)) returns exactly d.", "quantifier": "all byte strings ending in 0x0D, any length and content", "why_tests_cant": "Interactions between the three sequential replace() passes and the single-pass inverse depend on arbitrary adjacent bytes (1B 0E, 1B 1B 0F ...); examples only sample them.", "anchors": ["elgas/utils.py:escape_characters", "elgas/utils.py:return_characters"]}
{"id": "C02", "title": "The end character delimits an escaped frame", "statement": "escape_characters(d) contains 0x0D exactly once, as its last byte, and contains no 0x8D; if d does not end with 0x0D it raises ValueError. Hence a receiver that cuts a concatenation of escaped frames at each 0x0D recovers exactly those frames, in order.", "quantifier": "all byte strings; all finite sequences of frames", "why_tests_cant": "The claim is about every frame content and every number of concatenated frames.", "anchors": ["elgas/utils.py:escape_characters", "elgas/connection.py:ElgasConnection.next_event"]}
{"id": "C03", "title": "Unescaping is total up to a dangling escape, and escaping has bounded overhead", "statement": "return_characters(d) raises (IndexError) exactly when a left-to-right reading of d ends in an unpaired 0x1B, and otherwise returns at most len(d) bytes; bytes that form no escape pair are kept. On data ending in its only 0x0D (the data the connection hands to it) it never raises. escape_characters at most doubles the length.", "quantifier": "all byte strings", "why_tests_cant": "Termination/partiality over every input.", "anchors": ["elgas/utils.py:return_characters", "elgas/utils.py:escape_characters"]}
{"id": "C04", "title": "LRC, CHECKSUM and DRC are the XOR, the sum mod 256 and the rotate-XOR of the data", "statement": "calculate_lrc(d) is the XOR of all bytes; calculate_checksum(d) is the sum of all bytes mod 256; calculate_drc(d) is the XOR over i of byte i rotated left by (len(d)-1-i) mod 8 bits. All lie in 0..255.", "quantifier": "all byte strings of any length", "why_tests_cant": "Closed forms hold for every length; tests check two vectors.", "anchors": ["elgas/utils.py:calculate_lrc", "elgas/utils.py:calculate_checksum", "elgas/utils.py:calculate_drc"]}
{"id": "C05", "title": "Every single-byte corruption of a frame is rejected", "statement": "If from_bytes of a frame class, or ResponseFactory.from_bytes, accepts a byte string, then replacing any one byte by any different value gives a byte string that the same function rejects with ValueError.", "quantifier": "all accepted frames, all positions, all replacement values", "why_tests_cant": "frames x positions x 255 values is unbounded in the frame length.", "anchors": ["elgas/frames.py:Response.from_bytes", "elgas/frames.py:Request.from_bytes", "elgas/utils.py:calculate_lrc"]}
{"id": "C06", "title": "Which two-byte corruptions the redundancy bytes detect", "statement": "Replacing two adjacent bytes of redundancy-protected data (at least one of them changed) leaves LRC, CHECKSUM and DRC all unchanged if and only if both bytes are replaced by their bitwise complements and their sum is congruent to 127 mod 128. Exchanging two bytes a, b that are k positions apart is undetected if and only if (a xor b) is invariant under rotation by k bits; in particular exchanges at a distance that is a multiple of 8 are never detected.", "quantifier": "all data, all positions, all pairs of bytes", "why_tests_cant": "An exact characterisation of undetected errors is a statement about all data.", "anchors": ["elgas/utils.py:calculate_lrc", "elgas/utils.py:calculate_checksum", "elgas/utils.py:calculate_drc"]}
{"id": "C07", "title": "calculate_crc is CRC-16/MODBUS with its two bytes exchanged", "statement": "For every byte string, the table-driven calculate_crc returns the bit-by-bit reflected CRC with polynomial 0xA001 and initial value 0xFFFF, with low and high byte exchanged.", "quantifier": "all byte strings, all 256 table entries", "why_tests_cant": "Table correctness and the per-byte step must hold for every byte and every state.", "anchors": ["elgas/utils.py:generate_crc16_table", "elgas/utils.py:calculate_crc"]}
{"id": "C08", "title": "The CRC detects every error confined to two consecutive bytes", "statement": "Two byte strings of the same length that differ, but only inside a window of two consecutive bytes, have different calculate_crc values.", "quantifier": "all pairs of byte strings, all window positions", "why_tests_cant": "Unbounded lengths and positions.", "anchors": ["elgas/utils.py:calculate_crc"]}
{"id": "C09", "title": "Response frames round-trip", "statement": "For every service number, addresses in range and data of at most 65520 bytes, Response.from_bytes(Response(...).to_bytes()) returns an equal Response; the same for EncryptedResponse; ResponseFactory.from_bytes returns the same object of the same class.", "quantifier": "all field values in range, all data", "why_tests_cant": "Round trip over unbounded data.", "anchors": ["elgas/frames.py:Response", "elgas/frames.py:EncryptedResponse", "elgas/frames.py:ResponseFactory"]}
{"id": "C10", "title": "Frame layout and length field", "statement": "A successful to_bytes is exactly STX, 0xFE, type, service, length (2 bytes little endian), addresses, data, LRC, CHECKSUM, DRC, 0x0D, where the length field equals the number of bytes after STX. The two-byte addresses are big endian in requests and little endian in responses. The service byte is the number the protocol assigns to the service, in both directions.", "quantifier": "all field values", "why_tests_cant": "Layout for every data length.", "anchors": ["elgas/frames.py:Request.to_bytes", "elgas/frames.py:Response.to_bytes", "elgas/frames.py:Request.length"]}
{"id": "C11", "title": "Request frames read back: what Request.from_bytes returns for a serialised request", "statement": "Request.from_bytes(Request(...).to_bytes()) returns the same service, data and one-byte addresses, and the two-byte addresses with their bytes exchanged (to_bytes writes them big endian, from_bytes reads them little endian); so it returns an equal Request if and only if each two-byte address has equal high and low bytes. Defect: the general round trip a user expects fails, e.g. for address 1.", "quantifier": "all field values in range, all data", "why_tests_cant": "Holds for the addresses 0 used by the client and fails for others.", "anchors": ["elgas/frames.py:Request.to_bytes", "elgas/frames.py:Request.from_bytes"]}
{"id": "C12", "title": "Accepted frames are the well-formed ones, except short ones", "statement": "A byte string of at least 16 bytes accepted by Response.from_bytes is the to_bytes() of the returned Response, and of no other. Every accepted string has at least 9 bytes. Defect: strings of every length from 9 to 15 are accepted (one of each length is exhibited) although no string that short is the to_bytes() of any Response.", "quantifier": "all byte strings", "why_tests_cant": "Soundness of a decoder ranges over all inputs, including malformed ones.", "anchors": ["elgas/frames.py:Response.from_bytes", "elgas/frames.py:ResponseFactory.from_bytes"]}
{"id": "C13", "title": "Frame decoding of arbitrary bytes fails only with ValueError", "statement": "For every byte string, Request.from_bytes, Response.from_bytes, EncryptedResponse.from_bytes and ResponseFactory.from_bytes either return a frame or raise ValueError; they never raise IndexError or any other exception.", "quantifier": "all byte strings", "why_tests_cant": "Totality over arbitrary input.", "anchors": ["elgas/frames.py:Request.from_bytes", "elgas/frames.py:Response.from_bytes", "elgas/frames.py:ResponseFactory.from_bytes"]}
{"id": "C14", "title": "Out-of-range frame fields raise and are never truncated", "statement": "to_bytes succeeds if and only if both two-byte addresses are in 0..65535, both one-byte addresses in 0..255 and len(data) <= 65520; otherwise it raises the exception of the first offending field in frame order: OverflowError for the length and for a two-byte address, ValueError for a one-byte address.", "quantifier": "all integers as addresses, all data", "why_tests_cant": "All integers.", "anchors": ["elgas/frames.py:Request.to_bytes", "elgas/frames.py:Response.to_bytes"]}
{"id": "C15", "title": "BCD encoding round-trips", "statement": "For every non-negative integer n, from_bcd(to_bdc(n)) == n and to_bdc(n) is the shortest even number of decimal digits packed two per byte; for negative n to_bdc raises ValueError. from_bcd raises ValueError exactly on empty input or input with a nibble above 9, and is injective on inputs of equal length.", "quantifier": "all integers; all byte strings", "why_tests_cant": "Unbounded integers.", "anchors": ["elgas/utils.py:to_bdc", "elgas/utils.py:from_bcd"]}
{"id": "C16", "title": "Timestamps of the years 2000-2099 round-trip through the device format", "statement": "For every valid datetime t with 2000 <= year <= 2099, datetime_to_bytes(t) is 6 bytes and bytes_to_datetime of it returns t truncated to the second with both DST flags False.", "quantifier": "all valid datetimes in the century", "why_tests_cant": "3.16e9 timestamps; month lengths and leap years.", "anchors": ["elgas/utils.py:datetime_to_bytes", "elgas/utils.py:bytes_to_datetime"]}
{"id": "C17", "title": "Decoding a device timestamp yields a real date or ValueError", "statement": "bytes_to_datetime(d) succeeds iff d is 6 bytes that are valid BCD (after masking the two flag bits of the hour byte) of a valid calendar date/time; then the result is a valid datetime in 2000-2099, the flags are bits 7 and 6 of the hour byte, and datetime_to_bytes of the result gives back d with those two bits cleared. Otherwise it raises ValueError and nothing else.", "quantifier": "all byte strings", "why_tests_cant": "2^48 inputs plus all wrong lengths.", "anchors": ["elgas/utils.py:bytes_to_datetime", "elgas/utils.py:from_bcd"]}
{"id": "C18", "title": "Timestamps outside 2000-2099 are not encodable in 6 bytes", "statement": "datetime_to_bytes raises ValueError for every datetime before 2000, and for every datetime from 2100 on returns 7 bytes instead of 6, so that every later field of a WriteTimeRequest or ReadArchiveByTimeRequest body is shifted by one byte.", "quantifier": "all valid datetimes outside the century", "why_tests_cant": "All years 1..1999 and 2100..9999.", "anchors": ["elgas/utils.py:datetime_to_bytes", "elgas/application.py:WriteTimeRequest.to_bytes"]}
{"id": "C19", "title": "Text fields are cleaned deterministically", "statement": "pretty_text(d) never raises; it ignores everything from the last NUL on; the result contains no NUL and neither starts nor ends with ASCII whitespace; its inner characters are the bytes with NUL replaced by space. Applying it again to its own latin-1 encoding changes nothing.", "quantifier": "all byte strings", "why_tests_cant": "Arbitrary device garbage in text fields.", "anchors": ["elgas/utils.py:pretty_text"]}
{"id": "C20", "title": "IP address rendering is exact", "statement": "parse_ip_address(d) raises ValueError unless len(d) == 4; otherwise it is the dotted decimal of the four bytes, and different inputs give different strings.", "quantifier": "all byte strings", "why_tests_cant": "2^32 inputs.", "anchors": ["elgas/utils.py:parse_ip_address"]}
{"id": "C21", "title": "Request bodies have the documented layout", "statement": "For every password encodable in latin-1 and every random padding, the body of each request is: password bytes, '!', 0x03, two padding characters, then the fields (object_count/buffer_length as 2-byte little endian; archive byte; record id 4 bytes, amount 2 bytes little endian; BCD time; flags). With a 6-character password every field is at its documented offset and an independent decoder recovers it. If a field cannot be written, the exception is that of the first such field in body order: UnicodeEncodeError for the password, OverflowError for the 2- and 4-byte integers, ValueError for the archive byte and for a date outside the range of the BCD format.", "quantifier": "all passwords, paddings, integers and datetimes", "why_tests_cant": "Unbounded integers and all random draws.", "anchors": ["elgas/application.py:ReadInstantaneousValuesRequest", "elgas/application.py:ReadDeviceParametersRequest", "elgas/application.py:ReadArchiveRequest", "elgas/application.py:ReadArchiveByTimeRequest", "elgas/application.py:WriteTimeRequest", "elgas/utils.py:pad_password"]}
{"id": "C22", "title": "The padded password occupies 10 bytes", "statement": "The password block of a request is the password in latin-1, '!', 0x03 and two drawn characters, each an ASCII letter or digit other than w and W: len(password)+4 bytes. A character above U+00FF makes encoding raise UnicodeEncodeError, and nothing else does. The block determines the password, whatever was drawn. Defect: the protocol wants 10 bytes, but the block has 10 bytes exactly for 6-character passwords; the connection accepts shorter passwords and then every following field is shifted.", "quantifier": "all passwords, all random draws", "why_tests_cant": "All passwords.", "anchors": ["elgas/utils.py:pad_password", "elgas/connection.py:ElgasConnection"]}
{"id": "C23", "title": "Instantaneous-values responses are split without loss", "statement": "ReadInstantaneousValuesResponse.from_bytes succeeds iff the body has at least 25 bytes and starts with a valid timestamp; then time bytes, data, data_access, status, summary_status, parameter_crc concatenated in that order are exactly the body. It raises ValueError iff the body does not start with a valid timestamp, and IndexError iff it does but has fewer than 25 bytes; nothing else.", "quantifier": "all byte strings", "why_tests_cant": "Negative-index slicing over every length.", "anchors": ["elgas/application.py:ReadInstantaneousValuesResponse.from_bytes"]}
{"id": "C24", "title": "Read-time responses decode the device time", "statement": "ReadTimeResponse.from_bytes succeeds iff the first 6 bytes are a valid device timestamp; it returns that time and flags, byte 6 as access result and bytes 7..len-2 as extra data.", "quantifier": "all byte strings", "why_tests_cant": "All inputs.", "anchors": ["elgas/application.py:ReadTimeResponse.from_bytes"]}
{"id": "C25", "title": "Device-parameter responses decode their header", "statement": "ReadDeviceParametersResponse.from_bytes raises IndexError for bodies shorter than 5 bytes and otherwise returns the two little-endian counters, is_end (byte 4 non-zero) and the remaining bytes as data.", "quantifier": "all byte strings", "why_tests_cant": "All inputs.", "anchors": ["elgas/application.py:ReadDeviceParametersResponse.from_bytes"]}
{"id": "C26", "title": "Archive responses return the record id the device sent", "statement": "The record id returned by an archive response is the 4-byte id the device sent, modulo 2^24, so it is the device's id if and only if that is below 2^24; archive (by the number the protocol assigns to it) and data are exact. Defect: requests can carry ids up to 2^32-1, but the code reads 3 bytes of the answer's id and skips the fourth. from_bytes raises IndexError iff the body is empty and ValueError iff the archive is unknown; bodies of 1 to 4 bytes are accepted although they hold no complete id.", "quantifier": "all record ids, archives and data", "why_tests_cant": "Fails only for ids >= 2^24, which no fixture contains.", "anchors": ["elgas/application.py:ReadArchiveResponse.from_bytes", "elgas/application.py:ReadArchiveByTimeResponse.from_bytes", "elgas/application.py:ReadArchiveRequest.to_bytes"]}
{"id": "C27", "title": "Call messages are decoded field by field", "statement": "CallRequest.from_bytes succeeds iff the body has at least 141 bytes, the SIM and modem ids are BCD and the protocol is known; it then returns exactly the fields of the fixed layout (times as 2000-01-01 plus the given seconds, the protocol by its number) and ignores trailing bytes. Otherwise it raises, in body order, ValueError for a SIM or modem id that is not BCD, IndexError where the body ends and ValueError for an unknown protocol. Defect: the SIM and modem id strings lose leading zeros.", "quantifier": "all byte strings", "why_tests_cant": "All inputs and all 2^32 second counts.", "anchors": ["elgas/application.py:CallRequest.from_bytes", "elgas/utils.py:pop_many", "elgas/utils.py:pretty_text"]}
{"id": "C28", "title": "Write-time requests carry the sync-only flag", "statement": "The last byte of a WriteTimeRequest body is 0x04 for every password, time and cryout value: the cryout argument of ElgasClient.write_time has no effect on the bytes sent.", "quantifier": "all arguments", "why_tests_cant": "All arguments.", "anchors": ["elgas/application.py:WriteTimeRequest.to_bytes", "elgas/client.py:ElgasClient.write_time"]}
{"id": "C29", "title": "Decryption undoes encryption", "statement": "For every key id, every 16-byte key, every data of at most 65535 bytes and every random padding, CipherContext.decrypt(CipherContext.encrypt(data)) == data.", "quantifier": "all keys, data, paddings; any block cipher with D(E(b)) = b", "why_tests_cant": "Unbounded data and random padding.", "anchors": ["elgas/security.py:CipherContext.encrypt", "elgas/security.py:CipherContext.decrypt", "elgas/security.py:data_padding"]}
{"id": "C30", "title": "Shape of encrypted data", "statement": "encrypt(data) is 2 bytes little-endian len(data), the key id byte and the AES-CBC encryption (IV = key) of data, padding and CRC, whose length is the least multiple of 16 that is >= len(data)+2; the padding consists of drawn bytes. It raises OverflowError for more than 65535 bytes, else ValueError if the key id is outside 0..255 or the key is not 16 bytes, and never otherwise. Data whose length is 14 modulo 16 gets no padding: equal such messages have equal ciphertexts.", "quantifier": "all data, keys, paddings", "why_tests_cant": "All lengths mod 16.", "anchors": ["elgas/security.py:CipherContext.encrypt", "elgas/security.py:data_padding", "elgas/security.py:encrypt"]}
{"id": "C31", "title": "Decryption rejects foreign or damaged data", "statement": "decrypt raises AssertionError when the key id byte differs, IndexError when fewer than 3 bytes are given, ValueError when the ciphertext is not a multiple of 16 bytes or the CRC over header and plaintext does not match; when it returns, the CRC matched and the result is the plaintext cut to the announced length. Changing the announced length or (with the CRC covering it) at most two consecutive plaintext bytes is always detected.", "quantifier": "all byte strings, keys and key ids", "why_tests_cant": "All inputs and all tamperings of the header.", "anchors": ["elgas/security.py:CipherContext.decrypt"]}
{"id": "C32", "title": "Encryption is used exactly when both key and key id are configured", "statement": "A connection created with both an encryption key and a key id sends only EncryptedRequest frames (type 0x85) whose body decrypts to the request body; with either one missing it sends plaintext Request frames (type 0x84) without any error.", "quantifier": "all connections, events and random draws", "why_tests_cant": "All configurations and requests.", "anchors": ["elgas/connection.py:create_cipher_context", "elgas/connection.py:ElgasConnection.send", "elgas/utils.py:to_secret_byte"]}
{"id": "C33", "title": "An encrypting connection accepts plaintext responses", "statement": "The outcome of next_event on a plaintext response frame (type 0x86) does not depend on the encryption configuration of the connection: there is no protection against a downgrade to plaintext.", "quantifier": "all connections and buffers holding a plaintext frame", "why_tests_cant": "Absence of a check must be shown for all inputs.", "anchors": ["elgas/connection.py:ElgasConnection.next_event"]}
{"id": "C34", "title": "The protocol state machine permits exactly request/response pairs", "statement": "process_event accepts an event iff it is a request in IDLE or the matching response in the corresponding AWAITING state, and then moves to AWAITING resp. IDLE; every other event raises LocalElgasProtocolError and leaves the state unchanged.", "quantifier": "all states x all event types", "why_tests_cant": "Complete transition table incl. error frame conditions.", "anchors": ["elgas/state.py:ELGAS_STATE_TRANSITIONS", "elgas/state.py:ElgasState.process_event"]}
{"id": "C35", "title": "At most one request is outstanding and replies match requests", "statement": "In every history of send (of request objects) / receive_data / next_event calls on a connection, accepted requests and returned PDUs alternate, starting with a request, and every returned PDU is of the response type of the request accepted immediately before it. (Sending a response object is possible: it resets the state; the theorem C35_sending_a_response_resets says exactly how.)", "quantifier": "all histories of API calls with arbitrary data", "why_tests_cant": "All interleavings and all received data.", "anchors": ["elgas/connection.py:ElgasConnection", "elgas/state.py:ElgasState"]}
{"id": "C36", "title": "A send that fails to serialise is not rolled back", "statement": "send leaves the connection unchanged when the state machine refuses the event (it raises LocalElgasProtocolError and nothing is sent). Defect: when serialisation fails after the state change (password, integer or date not encodable), the connection stays in AWAITING and refuses every request until the matching response has been received.", "quantifier": "all connections, events and later histories", "why_tests_cant": "Quantifies over all later histories.", "anchors": ["elgas/connection.py:ElgasConnection.send"]}
{"id": "C37", "title": "Reception does not depend on how the bytes are chunked", "statement": "Feeding the escaped bytes of a response frame to an empty connection in any chunking, polling next_event after every chunk, yields NEED_DATA until the last byte has arrived and then the same event as feeding it in one piece.", "quantifier": "all frames, all chunkings, any number of polls", "why_tests_cant": "2^(n-1) chunkings of every frame.", "anchors": ["elgas/connection.py:ElgasConnection.receive_data", "elgas/connection.py:ElgasConnection.next_event"]}
{"id": "C38", "title": "Polling is safe", "statement": "When next_event returns NEED_DATA or raises any exception, the connection (buffer, protocol state, configuration) is unchanged; when it returns a PDU the buffer is empty and the state is IDLE.", "quantifier": "all connections and buffers", "why_tests_cant": "All buffers.", "anchors": ["elgas/connection.py:ElgasConnection.next_event"]}
{"id": "C39", "title": "A damaged frame at the head of the buffer blocks the connection", "statement": "Defect, proved in full: once the buffer starts with a 0x0D-terminated line that is not a valid response frame, next_event returns NEED_DATA for ever, whatever is sent and received afterwards; no PDU is ever delivered again, and if a request was pending no request is ever accepted again. Every single-byte corruption of a valid frame is such a line.", "quantifier": "all damaged prefixes and all later histories", "why_tests_cant": "All later histories.", "anchors": ["elgas/connection.py:ElgasConnection.next_event"]}
{"id": "C40", "title": "Device error codes are raised as their exception", "statement": "A response frame whose (decrypted) data is one byte with exactly one bit set makes next_event raise the exception of that bit (bit 0 WrongPassword .. bit 7 WriteError), whatever the service number; the connection is unchanged, so the same exception is raised by every later poll and every further request is refused with LocalElgasProtocolError.", "quantifier": "all services, bits, connections, later polls", "why_tests_cant": "All histories after an error.", "anchors": ["elgas/connection.py:raise_error", "elgas/connection.py:ElgasConnection.next_event"]}
{"id": "C41", "title": "Combined error bits are not reported", "statement": "Defect, proved in full: a one-byte response with two or more bits set (or none) raises none of the device errors; for a pending write-time request next_event then returns WriteTimeResponse, i.e. reports success.", "quantifier": "all error bytes", "why_tests_cant": "All 256 codes x all connections.", "anchors": ["elgas/connection.py:raise_error", "elgas/application.py:WriteTimeResponse.from_bytes"]}
{"id": "C42", "title": "A lone end character is ignored only on an empty buffer", "statement": "receive_data(b'\\r') on an empty buffer and receive_data(b'') change nothing; any other data is appended to the buffer unchanged. A stray end character that arrives in the same chunk as a frame blocks reception of that frame.", "quantifier": "all connections and data", "why_tests_cant": "All data and buffers.", "anchors": ["elgas/connection.py:ElgasConnection.receive_data"]}
{"id": "C43", "title": "Bytes after a delivered frame are discarded", "statement": "When next_event delivers a PDU, every byte received after the end character of that frame is dropped: a second response already in the buffer is never delivered.", "quantifier": "all buffers", "why_tests_cant": "All trailing data.", "anchors": ["elgas/connection.py:ElgasConnection.next_event"]}
{"id": "C44", "title": "Only a matching, well-formed response completes a request", "statement": "next_event returns a PDU iff the bytes up to the first 0x0D unescape to a frame accepted by ResponseFactory (decrypting under the configured key if of type 0x87) whose data is not a single error byte, whose service number is that of the pending request and whose data the response class accepts. In every other case its answer is determined: NEED_DATA without a complete line, for a line that is no frame and for a failed CRC or incomplete blocks; AttributeError for an encrypted frame without a configured key, IndexError if it has fewer than 3 bytes, AssertionError for another key id; the device error of a single error bit; the exception of the response class if that refuses the data (KeyError for services without one); LocalElgasProtocolError for a well-formed response that is not the awaited one. In all these cases the request stays pending.", "quantifier": "all connections and buffers", "why_tests_cant": "All inputs.", "anchors": ["elgas/connection.py:ElgasConnection.next_event", "elgas/connection.py:ResponsePduFactory"]}
{"id": "C45", "title": "Request/response exchange succeeds end to end", "statement": "For every idle connection and every request, if send returns bytes and the peer answers with the frame of any body the response class accepts and that is not a single error byte (encrypted under the shared key if configured), in any chunks, then all polls before the last chunk return NEED_DATA, the last one returns the decoded body and the connection is idle with an empty buffer, ready for the next request.", "quantifier": "all connections, requests, bodies, paddings", "why_tests_cant": "Composition of escaping, framing, encryption, decoding and state machine.", "anchors": ["elgas/connection.py:ElgasConnection", "elgas/frames.py:Response", "elgas/security.py:CipherContext"]}
{"id": "C46", "title": "Connection parameters are validated", "statement": "ElgasConnection(...) is created iff source/destination address_1 are in 0..65535, address_2 in 0..255, the password has at most 6 characters and password_id is in 801..849; otherwise ValueError. On a created connection in the idle state, sending a request whose body can be built always succeeds without encryption if the body has at most 65520 bytes (so addresses are never the reason of a failure), and with encryption if the key has 16 bytes, the key id is in 0..255 and the body has at most 65502 bytes; otherwise never: a longer body raises OverflowError, an invalid key or key id ValueError (OverflowError if the body has more than 65535 bytes), and if the body cannot be built the exception is that of building it.", "quantifier": "all integers and strings", "why_tests_cant": "All integers.", "anchors": ["elgas/connection.py:ElgasConnection"]}
{"id": "C47", "title": "The TCP/serial transport returns exactly one line", "statement": "If the next bytes of the stream contain 0x0D and are read in time, recv returns exactly the bytes up to and including the first 0x0D, however the stream is delivered (with any empty reads in between), and leaves everything after it unread. If the timeout expires first, recv returns the (non-empty, possibly incomplete) bytes read so far instead of raising; if the OS reports an error first, recv raises its translation and the bytes read so far are lost.", "quantifier": "all byte streams", "why_tests_cant": "All streams and all interleaved empty reads.", "anchors": ["elgas/transport.py:BlockingTcpTransport.recv_until", "elgas/transport.py:SerialTransport.recv_until", "elgas/transport.py:BlockingTcpTransport._recv_bytes", "elgas/transport.py:SerialTransport._recv_bytes"]}
{"id": "C48", "title": "A closed peer makes recv spin", "statement": "Defect, proved in full: _recv_bytes ignores empty reads, so if every further read is empty (the peer has closed the connection), recv never returns, whatever the timeout and however many reads are made.", "quantifier": "all streams that end without 0x0D; all numbers of further reads", "why_tests_cant": "Non-termination cannot be tested.", "anchors": ["elgas/transport.py:BlockingTcpTransport._recv_bytes", "elgas/transport.py:SerialTransport._recv_bytes"]}
{"id": "C49", "title": "Transport life cycle", "statement": "For every sequence of connect/disconnect/send/recv calls and every outcome of the OS calls: at most one socket is held; connect while connected raises RuntimeError and keeps the socket; a failed connect leaves the transport disconnected; after disconnect (even a failing one) there is no socket and connect works again; send/recv without a socket raise RuntimeError; every OS error surfaces as CommunicationError.", "quantifier": "all call sequences x all OS outcomes", "why_tests_cant": "All sequences.", "anchors": ["elgas/transport.py:BlockingTcpTransport", "elgas/transport.py:SerialTransport"]}
{"id": "C50", "title": "disconnect closes the socket", "statement": "disconnect calls shutdown and then close, and drops the handle. Defect: if shutdown() fails (e.g. the peer already closed the connection) close() is skipped and the handle is dropped: the socket is never closed by the transport again, whatever is called later.", "quantifier": "all OS outcomes, all later call sequences", "why_tests_cant": "All later histories.", "anchors": ["elgas/transport.py:BlockingTcpTransport.disconnect"]}
{"id": "C51", "title": "Timeout bookkeeping", "statement": "For a finite positive duration and any clock readings time_left is in [0, duration]; without clock jumps it equals max(0, start+duration-now), expired is true exactly from start+duration on, and once expired stays expired. An infinite timeout never expires; a zero timeout is always expired. restart() of a finite timeout makes it a fresh one. Defects: restart() of an infinite timeout makes expired() raise TypeError, and a zero timeout stays expired whatever it is restarted with; a clock that runs backwards starts the timeout again.", "quantifier": "all durations and clock sequences", "why_tests_cant": "All clock behaviours.", "anchors": ["elgas/transport.py:Timeout"]}
{"id": "C52", "title": "Client calls return what the device sent", "statement": "For every client with an idle connection and an empty buffer, read_time / read_instantaneous_values / read_archive / read_archive_by_time / write_time return if and only if the transport sends the one request frame handed to it and the first line in the data returned by recv() (in any pieces; surplus data in the last piece is dropped) is a valid response, plain or encrypted, of the matching service; the value is the decoded response (read_time its time, write_time nothing), and the client is ready for the next call.", "quantifier": "all clients, devices, responses, recv chunkings", "why_tests_cant": "All devices and chunkings.", "anchors": ["elgas/client.py:ElgasClient"]}
{"id": "C53", "title": "Reading parameters pages through the whole device", "statement": "read_parameters(read_from) returns if and only if the device answers every page request up to the first page with is_end set, and the concatenation of all page data parses; the value is that parse. Exactly one request is written per page, and the k-th asks for object read_from + n_1 + ... + n_(k-1), n_i being the object amount of page i.", "quantifier": "any number of pages of any size", "why_tests_cant": "Unbounded number of pages.", "anchors": ["elgas/client.py:ElgasClient.read_parameters"]}
{"id": "C54", "title": "read_parameters does not bound the device", "statement": "read_parameters returns only through a page with is_end set. If the device keeps answering with object amount 0 and without is_end, read_parameters sends the same request again and again, any number of times, and is still waiting. When the next object number is not in 0..65535 it raises OverflowError, nothing is written, and the connection is left waiting for a response.", "quantifier": "all page sequences without end", "why_tests_cant": "Non-termination.", "anchors": ["elgas/client.py:ElgasClient.read_parameters"]}
{"id": "C55", "title": "A failed client call poisons the client", "statement": "In every history of calls on a new client, whatever the transport does, the client is at each moment either ready (idle, empty buffer) or stuck. A call on a ready client that raises or waits for ever leaves it stuck, except read_parameters when all pages were read and only parsing them fails. On a stuck client every call raises LocalElgasProtocolError, nothing is handed to the transport, recv is not called, and the client stays stuck for ever. Defect: a user expects a call after e.g. a device error or a timeout to work again.", "quantifier": "all failures, all later call sequences", "why_tests_cant": "All later histories.", "anchors": ["elgas/client.py:ElgasClient.send", "elgas/connection.py:ElgasConnection.send"]}
{"id": "C56", "title": "Parameter lists are split by their length fields", "statement": "For any list of records (length, type, body) with length = len(body)+3, ScadaParameterParser().parse of their concatenation returns, in order, what ParameterFactory returns for each (type, body), or raises the first exception one of them raises; each result depends only on its own record.", "quantifier": "any number of records of any content", "why_tests_cant": "Unbounded lists.", "anchors": ["elgas/parser.py:ScadaParameterParser.parse", "elgas/parameters/factory.py:ParameterFactory"]}
{"id": "C57", "title": "The parameter parser terminates on every input", "statement": "parse terminates on every byte string (also with length fields below 3, which make the slice indices negative): every iteration consumes at least 3 bytes, so that there are at most len/3 objects. For every byte string there is exactly one result: the objects of the records read one after the other, or the first exception. Empty input raises ValueError, a truncated record header IndexError.", "quantifier": "all byte strings", "why_tests_cant": "Termination over arbitrary input.", "anchors": ["elgas/parser.py:ScadaParameterParser.parse"]}
{"id": "C58", "title": "The parameter factory covers every object type of the enumeration", "statement": "Every type byte of the enumeration is dispatched to the class whose object_type it is, except CORRECTION_COUNTER (a class exists but is not registered: KeyError). Defects: DIFFERENCE_BASE_COUNTER's class has no from_bytes (AttributeError), and those of DEVICE_ERROR and SUM_OF_ALARMS call a constructor without three of its arguments (TypeError for every well-formed body). Unknown bytes raise ValueError; a known byte stands for the type the protocol lists under it. The schema factory covers exactly the same types.", "quantifier": "all type bytes, all bodies", "why_tests_cant": "All bodies.", "anchors": ["elgas/parameters/factory.py:ParameterFactory", "elgas/parameters/enumerations.py:ParameterObjectType", "elgas/parameters/difference_counter.py:DifferenceBaseCounter", "elgas/parameters/device_error.py:DeviceError", "elgas/parameters/sum_of_alarms.py:SumOfAlarms"]}
{"id": "C59", "title": "Parameter objects are decoded at fixed offsets", "statement": "For each parameter class, a successful from_bytes returns for every field the little-endian integer / flag bit / cleaned text / IEEE value found at the field's fixed offset of the body.", "quantifier": "all bodies of every class", "why_tests_cant": "All bodies; an off-by-one shifts every later field.", "anchors": ["elgas/parameters/*.py:from_bytes", "elgas/utils.py:pop_many"]}
{"id": "C60", "title": "Parameter objects reject bodies of the wrong length", "statement": "For each parameter class, from_bytes raises IndexError iff the body is shorter than the class's fixed size (or ends inside the optional tail); classes that assert the end of data raise AssertionError iff bytes are left over; the others ignore surplus bytes. No other exception is possible. Optional fields are None iff the body has exactly the minimum size.", "quantifier": "all bodies of every class", "why_tests_cant": "All lengths.", "anchors": ["elgas/parameters/*.py:from_bytes"]}
{"id": "C61", "title": "Schemas restore the object they dumped", "statement": "For every parsable parameter type and every object produced by from_bytes, schema.dump never fails, and schema.load of the dump returns an equal object (identical except for flow rates and timers, whose flags come back as 0/1) unless a float attribute is infinite or NaN (the four Number fields of AnalogQuantity excepted), in which case it raises ValidationError. Defects, part of the proved statement: for Modem, SetPoint and ErrorStandardCounter load returns a dict of the equal values instead of an object, and for a FlowRate sent without its optional last byte load raises ValidationError.", "quantifier": "all parsed objects of every parsable type, all bodies", "why_tests_cant": "All field values, all bit patterns of floats.", "anchors": ["elgas/parameters/factory.py:ParameterSchemaFactory", "elgas/parameters/*.py:*Schema"]}
{"id": "C62", "title": "Secrets are censored inside other reprs", "statement": "repr() of a SecretStr/SecretByte returns '<SECRET>' whenever any calling frame is a __repr__ function, at any depth, and the plain repr otherwise; to_secret_byte of empty data is None.", "quantifier": "all call stacks and all secrets", "why_tests_cant": "All stack depths.", "anchors": ["elgas/utils.py:SecretStr.__repr__", "elgas/utils.py:SecretByte.__repr__", "elgas/utils.py:to_secret_byte"]}
{"id": "C63", "title": "The published CRC of a message is the embedded one", "statement": "CipherContext.crc(data) is, with the same padding draws, the value that encrypt(data) puts high byte first at the end of the encrypted plaintext. It raises OverflowError for more than 65535 bytes, else ValueError for a key id outside 0..255, and nothing else; it does not depend on the key. It is a function of the data alone iff len(data) is 14 modulo 16: otherwise two calls on the same data can differ, so crc() cannot be used to check a message.", "quantifier": "all messages, keys and padding draws", "why_tests_cant": "All data lengths and random draws.", "anchors": ["elgas/security.py:CipherContext.crc", "elgas/security.py:CipherContext.encrypt"]}
{"id": "C64", "title": "pop_many takes exactly the requested bytes", "statement": "pop_many(array, n) for n >= 2 removes the first n bytes and returns them, raises IndexError iff the array has fewer, and raises ValueError for n < 2.", "quantifier": "all arrays and all natural n", "why_tests_cant": "All lengths.", "anchors": ["elgas/utils.py:pop_many"]}
{"id": "C65", "title": "Everything a client puts on the wire", "statement": "Whatever calls are made on a new ElgasClient, in whatever order, and whatever the transport does: the data handed to transport.send is, in call order, the requests of these calls and nothing else; every call hands over at most one frame (read_parameters one per page). Each is an escaped request frame from address 0 to address 0 with the client's password; it is of type 0x85 and decrypts under the client's key to the request body if the client was given a non-empty key and a key id, and of type 0x84 in the clear otherwise (an empty key silently means no encryption). No client ever mixes the two.", "quantifier": "all client arguments, call histories, transport behaviours and random draws", "why_tests_cant": "All histories of calls.", "anchors": ["elgas/client.py:ElgasClient", "elgas/connection.py:ElgasConnection.send", "elgas/utils.py:to_secret_byte"]}
{"id": "C66", "title": "recv_until stops at the first match", "statement": "For every terminator and size, a connected recv_until(expected, size) returns the next bytes of the stream, at least one, up to the first point where they end with the terminator or are size in number, and stops earlier only because of the timeout; it raises the OS exception that comes before that point; if there is no such point it goes on reading. An empty terminator is never found. _recv_bytes(n), by which it reads, returns exactly the next n bytes of the stream in order however they are segmented and leaves the rest, raises the OS exception that comes before them, and goes on reading when there are fewer; without a connection it raises RuntimeError and reads nothing.", "quantifier": "all terminators, sizes, streams, segmentations, clocks", "why_tests_cant": "All streams and arguments.", "anchors": ["elgas/transport.py:BlockingTcpTransport.recv_until", "elgas/transport.py:SerialTransport.recv_until"]}
{"id": "C67", "title": "Client and transport together", "statement": "Successive recv() calls of a transport lose, repeat and reorder nothing. A client on a connected TCP or serial transport whose stream goes on with a valid response to its request, cut into segments and interrupted by empty reads in any way, returns this response and takes exactly its bytes from the stream, whatever the timeout of the transport and the clock (a timeout never surfaces while bytes keep coming). Hence any number of exchanges over one stream are answered each with its own response.", "quantifier": "all streams, segmentations, clocks, timeouts; any number of exchanges", "why_tests_cant": "Composition of transport, connection and client for all schedules.", "anchors": ["elgas/client.py:ElgasClient.next_event", "elgas/transport.py:BlockingTcpTransport.recv", "elgas/transport.py:SerialTransport.recv"]}
{"id": "C68", "title": "A configuration survives export and import", "statement": "For every parameter list a device can send, the parsed objects can be exported (each by the schema of its object_type, packed as UtilitarianConfigurationObject and dumped as UtilitarianConfiguration); loading the exported document returns the document itself - dictionaries, never objects, because the schemas have no post_load hook - and dumping these dictionaries gives the document again; and from each entry, in order, exactly one result is restored by the schema its parameter_type selects: an equal object, with the exceptions of C61. UtilitarianConfigurationSchema.load accepts exactly the dictionaries with nothing but an optional list 'objects' whose elements have exactly the keys parameter_type (an integer or what int() makes one, not a boolean), data (a dictionary) and series_name (string or null); everything else raises ValidationError.", "quantifier": "all parameter lists, all JSON documents", "why_tests_cant": "All documents and all devices' answers; composition of parser, schemas and container.", "anchors": ["elgas/integration.py:UtilitarianConfigurationSchema", "elgas/integration.py:UtilitarianConfigurationObjectSchema", "elgas/parser.py:ScadaParameterParser", "elgas/integration.py:ConfigurationObjectSchema", "elgas/parameters/factory.py:ParameterSchemaFactory"]}
{"id": "C69", "title": "The bytes on the wire determine the request", "statement": "If two connections with the same configuration, in whatever states, send the same bytes, then they sent the same kind of request with the same arguments, whatever the random password and padding characters were, with passwords of any length and with or without encryption; so no two requests can be confused by the device. The only things not on the wire are the fraction of a second of a timestamp and the cryout flag of write_time.", "quantifier": "all pairs of requests, passwords, times, keys, random draws, connection states", "why_tests_cant": "All pairs of requests.", "anchors": ["elgas/connection.py:ElgasConnection.send", "elgas/application.py:ReadArchiveRequest.to_bytes", "elgas/application.py:ReadArchiveByTimeRequest.to_bytes", "elgas/application.py:WriteTimeRequest.to_bytes", "elgas/application.py:ReadDeviceParametersRequest.to_bytes", "elgas/utils.py:pad_password"]}
{"id": "C70", "title": "Only the service number ties a response to its request", "statement": "Two response frames with equal type, service and data get the same answer from next_event whatever their address fields are: a response of another device on the same line is accepted. A complete response that was received before its request was sent is taken for the answer. A response that was accepted once is accepted again, by this connection or any other with the same key, whenever a request of its kind is pending: recorded bytes can be replayed.", "quantifier": "all connections, frames, addresses, keys and histories", "why_tests_cant": "Statements about all frames and all later histories; every one of them is an absence of a check.", "anchors": ["elgas/connection.py:ElgasConnection.next_event", "elgas/frames.py:ResponseFactory.from_bytes", "elgas/state.py:ElgasState.process_event"]}
{"id": "C71", "title": "Encryption reveals lengths and common prefixes", "statement": "For messages encrypted under one key the first n blocks of the ciphertexts agree if and only if the first 16n bytes of the messages agree, whatever the random padding is; in particular a repeated message is sent as the same bytes up to its last block. Defect: the key itself is used as initialisation vector for every message.", "quantifier": "all messages, keys, padding draws, prefix lengths", "why_tests_cant": "All pairs of messages.", "anchors": ["elgas/security.py:CipherContext.encrypt", "elgas/security.py:encrypt"]}
{"id": "C72", "title": "The connection is a function of what happened on it", "statement": "After any history of calls on a new connection, the answer of next_event depends only on the key, on the kind of the last accepted request if nothing was returned since (else none), and on the chunks given to receive_data since the last returned PDU (leading empty chunks and lone end characters dropped, the rest concatenated). Errors, refused requests, NEED_DATA answers and earlier exchanges leave no trace.", "quantifier": "all histories of send/receive_data/next_event calls with requests", "why_tests_cant": "All histories.", "anchors": ["elgas/connection.py:ElgasConnection", "elgas/state.py:ElgasState"]}
{"id": "C73", "title": "Noise in front of a response blocks the connection for good", "statement": "If the first byte received by a connection with an empty buffer is not the start byte 0x02 (and did not come as a lone end character), next_event never returns a PDU or raises again: it answers NEED_DATA in every later history, whatever is sent and received. The same holds when the request itself is echoed back (two-wire lines). Defect: the receive buffer is only emptied when a PDU is returned.", "quantifier": "all noise, all later histories", "why_tests_cant": "Never, over unbounded histories.", "anchors": ["elgas/connection.py:ElgasConnection.next_event", "elgas/connection.py:ElgasConnection.receive_data"]}
{"id": "C74", "title": "Exactly which exceptions a caller has to expect", "statement": "next_event raises only AttributeError, IndexError, AssertionError, ValueError, KeyError, LocalElgasProtocolError and the eight device errors; send of a request raises only LocalElgasProtocolError, UnicodeEncodeError, ValueError and OverflowError; parsing a parameter list raises only ValueError, IndexError, KeyError, AttributeError, TypeError and AssertionError; and each of these really occurs. Every exception out of a call of ElgasClient is one of these or one that the transport raised.", "quantifier": "all connections, buffers, requests, parameter lists, clients and transport behaviours", "why_tests_cant": "Absence of any other exception over all inputs.", "anchors": ["elgas/connection.py:ElgasConnection.next_event", "elgas/connection.py:ElgasConnection.send", "elgas/client.py:ElgasClient", "elgas/parser.py:ScadaParameterParser.parse"]}
{"id": "C75", "title": "repr and print never show a secret", "statement": "repr() of a client, of its connection and of its cipher context does not depend on the password or the key, whatever they are: two clients that differ in nothing else print the same text, in any call stack. The same holds for a request object whose password is a SecretStr, and for every object in which the secrets are SecretStr/SecretByte. Limits: a connection created directly with a plain str password prints it; a request with a plain str password prints it.", "quantifier": "all passwords, keys, objects of the library, call stacks", "why_tests_cant": "All secrets and all call stacks; an absence.", "anchors": ["elgas/utils.py:SecretStr", "elgas/utils.py:SecretByte", "elgas/client.py:ElgasClient", "elgas/connection.py:ElgasConnection"]}
{"id": "C76", "title": "Without encryption the log shows the password", "statement": "On a client without key or key id every call that sends a password (all but read_time) and gets as far as handing a frame to the transport has written the password in plain text into the debug log, whatever calls were made before, although the client keeps it as a SecretStr and prints <SECRET> for it. Defect: the body of the request is logged as bytes (connection.send) and again by the transport.", "quantifier": "all passwords of printable characters, calls, histories, transport behaviours", "why_tests_cant": "All histories and passwords.", "anchors": ["elgas/connection.py:ElgasConnection.send", "elgas/transport.py:BlockingTcpTransport.send", "elgas/utils.py:pad_password"]}
{"id": "C77", "title": "With encryption the log shows nothing secret", "statement": "Over any history of calls on a client with key and key id and whatever the transport does, every log record has one of the fixed texts, and every argument prints like one of: a number, a time, the transport object, a request without its password, encrypted data, a frame as handed to the transport, and data that came from the device (raw, buffered, decoded, decrypted).", "quantifier": "all clients with key, histories of calls, transport behaviours, call stacks", "why_tests_cant": "All histories; an absence.", "anchors": ["elgas/connection.py:ElgasConnection.send", "elgas/connection.py:ElgasConnection.next_event", "elgas/client.py:ElgasClient"]}
{"id": "C78", "title": "The log is a faithful record of the traffic", "statement": "Over any history of calls on a client and whatever the transport does, the 'Sent data' records hold, in order, exactly the frames that the transport sent, and the 'Received data' records exactly what it delivered. send logs the request first, then a change of state exactly if it is not refused, then the frame. next_event logs 'Received PDU' exactly if the first line in the buffer is a response, even if it is then refused, and a change of state exactly if it was awaited. The methods of the client log their start first, and their success (with the time read, resp. the whole parameter data that is then parsed) last and exactly if they succeed. In between read_parameters logs, page after page, from which object on each request asks, how many objects each answer has, and where the next request begins.", "quantifier": "all histories of calls, transport behaviours, connections and buffers", "why_tests_cant": "All histories; records may be lost, doubled or out of order in none.", "anchors": ["elgas/connection.py:ElgasConnection", "elgas/state.py:ElgasState.process_event", "elgas/transport.py:BlockingTcpTransport", "elgas/client.py:ElgasClient"]}
{"id": "C79", "title": "A session with a device that follows the protocol", "statement": "Take any device that follows the protocol (written down separately: what it keeps, how it reads a request, what it does, which answers it may give) and a new client with its password and key. Over any sequence of calls with arguments the protocol can express, and however the answers are cut into pieces, every call returns what the device held at that moment: time, values, all parameter objects from the given one on, the archive records asked for (of the record id the lower three bytes); write_time sets the clock (to the second) and changes nothing else; in between the client stays ready. Such answers exist for every device. Every line a client with a six-character password writes has exactly one meaning to the device, that of the call. With a wrong password the device never changes, whatever lines reach it and in which order; the first call that needs the password raises WrongPassword and every later call LocalElgasProtocolError.", "quantifier": "all devices, keys, passwords, sequences of calls, page sizes, padding and segmentations", "why_tests_cant": "The composition of all layers with a peer, over unbounded sessions and all contents.", "anchors": ["elgas/client.py:ElgasClient", "elgas/connection.py:ElgasConnection", "elgas/frames.py", "elgas/application.py", "elgas/security.py:CipherContext", "elgas/utils.py"]}
{"id": "C80", "title": "One damaged byte never makes a wrong answer", "statement": "If any one byte of a response line on the wire (start byte, header, address, data, redundancy bytes, halves of escape pairs, end character) is changed to any other value, lost, or one byte is added anywhere, then a connection with nothing left over either answers NEED_DATA and changes nothing, or answers exactly what it would have answered to the line as sent; in the first case, if an end character arrived, it answers NEED_DATA for ever. A client call one of whose answers is damaged so, after any earlier ones (read_parameters needs several) and in any pieces, keeps waiting or ends exactly as with the undamaged answer. This needs the escape coding, the length field and all three redundancy bytes together: a lost or added byte shifts the reading of the escape pairs behind it.", "quantifier": "all response frames, encrypted or not, all damages of one byte, all segmentations and later histories", "why_tests_cant": "All frames times all damages; the interplay of escape coding and redundancy bytes.", "anchors": ["elgas/connection.py:ElgasConnection.next_event", "elgas/utils.py:return_characters", "elgas/frames.py:Response.from_bytes", "elgas/frames.py:ResponseFactory.from_bytes", "elgas/client.py:ElgasClient.next_event"]}
{"id": "C81", "title": "One damaged byte never makes a different request", "statement": "If any one byte of a line that a client hands to the transport is changed to any other value, lost, or one byte is added anywhere, and whatever follows on the wire, then a device that keeps to the protocol, even one that accepts any escaping that stands for the right bytes, either finds no question in the first line that arrives or the very one the client asked. In particular a damaged request never writes a different time, reads another archive or uses another password. This also covers a lost end character, where the line runs into the next one.", "quantifier": "all clients, with or without key, all call sequences and transports, all damages of one byte, everything that may follow", "why_tests_cant": "All requests times all damages; the interplay of escape coding, length field and redundancy bytes.", "anchors": ["elgas/frames.py:Request.to_bytes", "elgas/utils.py:escape_characters", "elgas/connection.py:ElgasConnection.send", "elgas/client.py:ElgasClient.send"]}
{"id": "C82", "title": "End to end: client, transport and device", "statement": "A new client with the password and key of a device, on a connected TCP or serial transport with any timeout and any clock, whose stream consists of the answers of the device to what the client writes, delivered in any segments with any empty reads in between: over any sequence of calls with arguments the protocol can express, every call returns what the device held at that moment, write_time sets its clock and nothing else, the whole stream is read, and the client stays ready. Such answers exist for every device whose data fits into frames, all calls and each way of delivering them. With a wrong password the device never changes, the first call that needs the password raises WrongPassword, and every later one raises LocalElgasProtocolError without writing anything.", "quantifier": "all devices, clients, call sequences, segmentations, timeouts and clocks", "why_tests_cant": "Composition of client, connection, transport, escaping, framing and encryption over unbounded streams and sessions.", "anchors": ["elgas/client.py:ElgasClient", "elgas/transport.py:BlockingTcpTransport.recv", "elgas/transport.py:SerialTransport.recv", "elgas/connection.py:ElgasConnection.next_event"]}
{"id": "C83", "title": "A whole program: connect, call, disconnect, any number of times", "statement": "Create a client with a new TCP or serial transport, then, any number of times, connect, make any calls with arguments the protocol can express, and disconnect. If the operating system opens a new handle each time, takes what is written, and lets the program read from each handle what a device that shares the client's secrets answers to what was written to that handle (in any segments, with any empty reads, any timeout and clock), then every connect and disconnect returns, every call gives back what the device held at that moment, the device ends as it should, and the OS has seen exactly this: for each session the opening, the request lines written to that handle and to no other, and the closing (for TCP a shutdown first). At the end no handle is open. Such answers exist for every such device, any number of sessions and all calls, however they are delivered.", "quantifier": "all clients, devices, numbers of sessions, call sequences, segmentations, timeouts and clocks", "why_tests_cant": "Composition of all layers with connection management over unbounded programs.", "anchors": ["elgas/client.py:ElgasClient", "elgas/transport.py:BlockingTcpTransport", "elgas/transport.py:SerialTransport", "elgas/connection.py:ElgasConnection"]}
{"id": "C84", "title": "Use without a connection", "statement": "A call of a client whose transport has no open handle always raises and asks nothing of the operating system. If the client has been used without failure and the arguments are such as the protocol can express, it raises RuntimeError; and from then on the client is lost: connecting afterwards does not help, every later call raises LocalElgasProtocolError and nothing is ever written. Defect: the state is changed before the transport is used, and connect does not reset it.", "quantifier": "all clients, all programs of connects, disconnects and calls before and after", "why_tests_cant": "All histories before and after the mistake.", "anchors": ["elgas/client.py:ElgasClient.send", "elgas/client.py:ElgasClient.connect", "elgas/transport.py:BlockingTcpTransport.send", "elgas/state.py:ElgasState.process_event"]}
{"id": "C85", "title": "Reconnecting does not repair a client", "statement": "As long as every call returns, the connection object stays as new through any connecting and disconnecting. If a call raises or never comes back (other than by an exception of the parser of read_parameters), then, whatever the program does afterwards with connect, disconnect and calls, every call raises LocalElgasProtocolError and nothing more is written to any handle.", "quantifier": "all clients, operating systems, programs before and after the failure", "why_tests_cant": "All programs and all ways to fail.", "anchors": ["elgas/client.py:ElgasClient.connect", "elgas/client.py:ElgasClient.disconnect", "elgas/client.py:ElgasClient.send", "elgas/state.py:ElgasState.process_event"]}
{"id": "C86", "title": "Several requests at once, and responses nobody asked for", "statement": "client.send with several requests never returns: either it ends as for the first alone, or it raises LocalElgasProtocolError having written only the first, and next_event then gives what it would have given after sending the first alone. next_event of a client that waits for nothing never returns. A response that arrives then is refused with LocalElgasProtocolError but stays in the buffer: through any connecting and disconnecting it is taken for the answer to the next request of its kind, and what was received for that request is thrown away (defect).", "quantifier": "all clients, requests, responses, reconnections", "why_tests_cant": "All requests and all states; the effect shows only in a later session.", "anchors": ["elgas/client.py:ElgasClient.send", "elgas/client.py:ElgasClient.next_event", "elgas/connection.py:ElgasConnection.next_event"]}
{"id": "C87", "title": "Life cycle of the connection over whole programs", "statement": "In every program that uses one client in any order (connect, disconnect, calls, send, next_event), with an operating system that fails with OSError only: at most one handle is held at a time, only the held one is written to, and it is given up in the right order; connect of a connected client raises RuntimeError and does nothing, of any other it gives what the OS gives or CommunicationError; disconnect of an unconnected client returns and asks nothing, of a connected one it always gives up the handle even when the OS fails, so that connecting again is possible; neither touches the protocol state; an unconnected client makes no OS call and never hangs, whatever is called.", "quantifier": "all programs, environments whose handle operations fail with OSError only, kinds of transport", "why_tests_cant": "Any order and number of calls and any pattern of OS failures.", "anchors": ["elgas/client.py:ElgasClient.connect", "elgas/client.py:ElgasClient.disconnect", "elgas/transport.py:BlockingTcpTransport.connect", "elgas/transport.py:BlockingTcpTransport.disconnect", "elgas/transport.py:SerialTransport.connect", "elgas/transport.py:SerialTransport.disconnect"]}
{"id": "C88", "title": "Tasks sharing one client", "statement": "Any number of tasks share one connected client; each sends requests and waits for the responses, and they are switched where they wait for the operating system (at the write and at every single read), in any order. Every call that ends was either refused with LocalElgasProtocolError without any effect, or had the outcome and the effect it has when the unrefused calls are made one after the other by a single task; at most one call is under way at any time; what a call returns is of the kind its own request asks for; while all calls so far have returned and none is under way the next one is not refused; and a call under way ends with that outcome once its task is scheduled often enough, unless it would never end alone. (For threads, which are also switched inside the methods, see C89.)", "quantifier": "all numbers of tasks, request strategies, schedules and OS environments", "why_tests_cant": "All interleavings.", "anchors": ["elgas/client.py:ElgasClient.send", "elgas/client.py:ElgasClient.next_event", "elgas/state.py:ElgasState.process_event", "elgas/connection.py:ElgasConnection.send", "elgas/transport.py:BlockingTcpTransport.recv_until"]}
{"id": "C89", "title": "Threads sharing one client", "statement": "Defect: the client is not safe for threads. When threads that share one client can be switched between any two accesses to the state of the connection, its receive buffer and the operating system, then in every schedule that leaves two places undisturbed (in send: between looking the state up and changing it; in next_event: between declaring the connection free and emptying the buffer) every call is refused without effect or behaves as if the calls were made one after the other, and returns what its own request asks for. Both places matter: for every idle connected client and any two requests there is a schedule after which both have been written and none is answered, there is one in which the second thread is given the answer to the first thread's request, and, if both ask for the same kind of thing, one in which both are given the first answer and the second is thrown away.", "quantifier": "all numbers of threads, request strategies, schedules and OS environments; for the defects all idle clients, request pairs and answers", "why_tests_cant": "All interleavings.", "anchors": ["elgas/state.py:ElgasState.process_event", "elgas/connection.py:ElgasConnection.send", "elgas/connection.py:ElgasConnection.next_event", "elgas/client.py:ElgasClient.send", "elgas/client.py:ElgasClient.next_event"]}
{"id": "C90", "title": "Ready-made connections, states and cipher contexts, and arguments without effect", "statement": "ElgasConnection accepts a ready-made state and cipher context and ElgasClient a ready-made connection. The connection's arguments are checked as ever; a given cipher context replaces the one made from key and key id (cipher_context=None switches encryption off although there is a key). A new connection with the arguments, state and cipher context of an old one whose buffer is empty goes on exactly like the old one. Everything a client with its own connection writes has the addresses of the connection, is encrypted by the cipher context of the connection if there is one and carries the client's password; sessions with a device work as in C79 whatever the addresses. Defects: password and password id of a connection, and key and key id once the cipher context is there, have no effect on anything (the password id of a client is checked and never used); a client given a key and a connection without cipher context silently writes in the clear; its password is not checked, and one that does not have six characters makes all its requests but read_time meaningless to the device.", "quantifier": "all constructor arguments, states, cipher contexts, histories of calls, devices and transports", "why_tests_cant": "All arguments and all histories.", "anchors": ["elgas/connection.py:ElgasConnection", "elgas/connection.py:create_cipher_context", "elgas/client.py:ElgasClient", "elgas/state.py:ElgasState"]}
{"id": "C91", "title": "The log of a whole program", "statement": "For any sequence of connect, disconnect, calls, send and next_event on a new client and whatever the operating system does: the records 'Sent data' are, in order, one for each write that succeeded, with the data, the address the transport was made with and the socket or port written to; the records 'Received data' name, in order, non-empty pieces of what each socket or port had to read, and of what was read only bytes of a line in which the operating system raised an exception, or of a last line that never ended, are left out; if the operating system fails with OSError only, the records 'Connected to ...' and 'Connection to ... is closed' are, in order, one for each connect that returned and one for each disconnect that returned while connected. Each call's log begins with its own record, and its record of success is there exactly if it returned (read_parameters: if all data came), as the last one. What read_parameters logs about its pages is from which object on each request asks, how many objects each answer has and where the next request begins. If the client has a key and the program sends no password itself, no record shows password or key other than encrypted. Defect: a disconnect that fails gives the connection up and logs nothing, so the log does not tell that the program is no longer connected.", "quantifier": "all programs, clients, transports and behaviours of the operating system", "why_tests_cant": "All programs and all behaviours of the operating system.", "anchors": ["elgas/transport.py:BlockingTcpTransport", "elgas/transport.py:SerialTransport", "elgas/client.py:ElgasClient", "elgas/connection.py:ElgasConnection"]}
{"id": "C92", "title": "Several connections and clients in one program", "statement": "In any program that makes and uses several connections, clients and transports: a connection made without elgas_state gives, to every sequence of calls on it, the results it would give as the only connection of the program, whatever is done with other objects in between; the same holds of a client with its own transport and connection, and the transport is given the same data. If several connections are made with one state object, their accepted requests and returned responses together are requests and responses in turns, so all of them together have at most one request outstanding; next_event looks at the data received on its own connection only, but accepts it if it answers the last request accepted on any of them. So a response on the wrong connection is accepted, and the right connection then refuses its own with LocalElgasProtocolError. Any number of clients of one device over one transport, with connections of their own or shared ones, called one after the other in any order: if the transport carries the device's answers, each call gives back what the device held at that moment, and such executions exist for all calls the protocol can express.", "quantifier": "all programs that make and use any number of connections, clients, transports and state objects, all interleavings of their calls", "why_tests_cant": "All interleavings of calls on any number of objects with any sharing between them.", "anchors": ["elgas/connection.py:ElgasConnection", "elgas/state.py:ElgasState", "elgas/client.py:ElgasClient"]}
{"id": "C93", "title": "The numbers in parameter objects", "statement": "A number transmitted as IEEE single is given to the user as exactly that number, one transmitted as double bit by bit. digit and lower_limit_measuring_range of an analog quantity and digit of a statistics object are singles rounded to seven decimal places: the result is the double next to the decimal fraction with seven places next to the number (ties to even in both steps), has the same sign, is at most 0.00000005001 away from the number, is the number itself from 65536 on, keeps the order of numbers, and rounding it again changes nothing; infinities and NaN stay what they are and no finite number becomes infinite. Defect: every resolution up to 0.00000005 becomes zero.", "quantifier": "all bodies of all parameter types, all 2^32 single and 2^64 double bit patterns, all numbers of decimal places up to 300", "why_tests_cant": "All bit patterns and all bodies.", "anchors": ["elgas/parameters/analog_quantity.py:AnalogQuantity.from_bytes", "elgas/parameters/statistics.py:AnalogStatistics.from_bytes", "elgas/parameters/counter.py:Counter.from_bytes", "elgas/parameters/gas_composition.py:GasComposition.from_bytes"]}
{"id": "C94", "title": "Tasks sharing a client of a device", "statement": "Any number of tasks share one new client that knows password and key of a device and is connected to it over TCP or serial, with any timeout, clock, segmentation and empty reads; each task makes its own sequence of read and write calls with arguments the protocol can express and goes on after an exception; they are switched where they wait for the operating system, in any order. Then every call that has ended either raised LocalElgasProtocolError and left the device as it was, or gave back what the device held when the call ended and left the device as it should, as if the calls had been made one after the other in the order in which they ended; this includes read_parameters, between whose pages other tasks can get in (also to set the clock) without spoiling the result. At most one request is under way. A request under way is answered once its task is scheduled often enough; when none is under way the next one is accepted; an exception is raised only while another task's request is under way and is LocalElgasProtocolError. The calls of each task end in order, none left out or made twice. A call made alone, cut at its exchanges, has the result and the effect of the client's method.", "quantifier": "all devices, clients that know their secrets, numbers of tasks, call sequences, schedules, transports, timeouts, clocks and deliveries", "why_tests_cant": "All interleavings and all device contents.", "anchors": ["elgas/client.py:ElgasClient.read_parameters", "elgas/client.py:ElgasClient.send", "elgas/client.py:ElgasClient.next_event", "elgas/client.py:ElgasClient.write_time", "elgas/state.py:ElgasState.process_event", "elgas/transport.py:BlockingTcpTransport.recv_until"]}
{"id": "C95", "title": "The printed log can be read back", "statement": "What the log prints of whole numbers, strings, bytes, bytearrays (as Python literals) and times can be read back, whatever characters or bytes they contain and whatever is printed after them. For every program on a new client and whatever the operating system does: the data read from the printed 'Sent data' records is, in order, exactly what was written to the device, that from the 'Received data' records what was read from it; and (OSError only) the 'Connected to' and 'Connection to ... is closed' texts tell, in order, of exactly the connections made and closed, each with an address from which host and port (TCP) or the port name (serial) can be read. The transport printed with each piece of data identifies its constructor arguments, timeout and handle.", "quantifier": "all texts, bytes, numbers and times; all programs, operating systems and transports", "why_tests_cant": "All values, including quotes, escapes and control characters; all programs.", "anchors": ["elgas/transport.py:BlockingTcpTransport.connect", "elgas/transport.py:BlockingTcpTransport.disconnect", "elgas/transport.py:BlockingTcpTransport.send", "elgas/transport.py:SerialTransport.connect", "elgas/transport.py:SerialTransport.recv_until", "elgas/client.py:ElgasClient.read_time"]}
{"id": "C96", "title": "Configurations survive as JSON text", "statement": "Whatever `json.dumps` writes of a document (strings with any characters, numbers of any size, floats including infinities and NaN, nested lists and dictionaries) `json.loads` reads back as the same document; the text is printable ASCII. Hence a configuration of any objects written with the schema's `dumps` is accepted by its `loads` and gives the types, data and names back; loading any other text raises nothing but ValueError or ValidationError. And for every parameter list of a device: its objects can be exported as text, `loads` accepts the text, and each entry restores its object in order, with the same class, attributes and values (floats to the last bit), unless a checked float is not finite or a flow rate has no `decimals`, when the schema refuses it.", "quantifier": "all documents, all configurations, all parameter lists a device may send, all texts", "why_tests_cant": "All nestings, all strings, all floats, all parameter lists.", "anchors": ["elgas/integration.py:UtilitarianConfigurationSchema", "elgas/integration.py:UtilitarianConfigurationObjectSchema", "elgas/parser.py:ScadaParameterParser", "elgas/parameters/analog_quantity.py:AnalogQuantitySchema", "elgas/parameters/gas_composition.py:GasCompositionSchema"]}
{"id": "C97", "title": "Assigning attributes", "statement": "What assignments to the attributes of a client, of its connection and of its transport do, in any program of connects, disconnects, calls, sends and assignments. Assigning the key, key id or password id of a client, or the password, password id, key or key id of its connection, never has any effect: all other steps have the same results and do the same to the operating system as without them; so a client made without a key never encrypts and a client made with one keeps using that key, however the keys are reassigned (unless a cipher context or a connection is assigned). Assigning the password, the timeout, the cipher context or the addresses of a new client makes it the client that would have been made with them; but addresses are not checked: with one out of range the next call raises without writing and leaves the client waiting. Emptying the buffer and setting the state to IDLE repairs a client whatever happened to it: it goes on as a new client, made with the same arguments, on the same transport. Only one of the two is no repair: with only the buffer emptied after a failed call every later call is refused, with only the state set, and the buffer beginning with something else than the start byte, no call ever returns. An assigned password or key is shown in full by `repr(client)` from then on.", "quantifier": "all clients, all programs with assignments, all values assigned, all devices and operating systems", "why_tests_cant": "All programs and histories.", "anchors": ["elgas/client.py:ElgasClient", "elgas/connection.py:ElgasConnection", "elgas/state.py:ElgasState", "elgas/transport.py:TcpTransport", "elgas/transport.py:SerialTransport"]}
{"id": "C98", "title": "Sessions that break off", "statement": "Every line a client writes ends with the end character and has it nowhere else, so the complete lines of whatever part of the bytes written to a handle has arrived are the first lines written to it. A session of calls may break off at any point: any first part of the bytes written reaches the device, a write may raise, fail partway or never come back, and of the bytes the device answers any first part can be read, after which nothing comes or a read raises. However it breaks off, the device has carried out the first calls exactly as asked and the client has returned for each of them what the device answered; the next call, if there is one left, does not return, and the device has carried it out wholly or not at all; all later calls raise LocalElgasProtocolError and the device has seen nothing of them. The device still holds the same key and password. Afterwards a second client that makes the call that did not return again, and then the later ones, and is not disturbed, completes the first: the values of the two together and the state of the device are those of one undisturbed session.", "quantifier": "all lists of calls, all devices, all points at which either direction breaks off, all ways the pieces arrive, both transports, with and without key", "why_tests_cant": "All crash points of all sessions.", "anchors": ["elgas/client.py:ElgasClient", "elgas/connection.py:ElgasConnection.next_event", "elgas/connection.py:ElgasConnection.send", "elgas/transport.py:TcpTransport", "elgas/transport.py:SerialTransport", "elgas/state.py:ElgasState"]}
{"id": "C99", "title": "What exceptions say", "statement": "Every exception that an action of a client raises either has one of a fixed list of texts, each for the cause that it names, or is one whose text comes from the interpreter, another library or the operating system; a RuntimeError, and every exception of exceptions.py, always has the library's text. A RuntimeError is exactly about the missing or superfluous handle and names the transport (except that reading from a closed serial transport speaks of TCP); a CommunicationError about the one call of the operating system that failed; a LocalElgasProtocolError names the class of an event that the action sent, or that arrived, and a protocol state in which that event is not to come; the errors of the device have no text. A password is shown by no exception, except that one with characters outside Latin-1 raises a UnicodeEncodeError that shows the first of them, or where they are. Constructing a connection with arguments out of range names the first one that is, its bound and its value. Reading a frame names the first check that fails, with the value received and the value due (except for the DRC, where the received one is shown twice); decryption with a wrong CRC shows the two values exchanged.", "quantifier": "all clients, programs, operating systems and devices; all arguments of a connection; all byte strings as frames and ciphertexts", "why_tests_cant": "All causes in all states.", "anchors": ["elgas/state.py:ElgasState.process_event", "elgas/transport.py:BlockingTcpTransport", "elgas/transport.py:SerialTransport", "elgas/connection.py:ElgasConnection", "elgas/frames.py:Response.from_bytes", "elgas/security.py:CipherContext.decrypt", "elgas/utils.py", "elgas/exceptions.py"]}
{"id": "C100", "title": "The password is only written", "statement": "Take two clients that are made with the same arguments except for their passwords, both of characters of Latin-1, on an operating system that behaves the same. Whatever program of connects, disconnects, calls, sends and polls is run with them, every action has the same outcome - the same value returned, the same exception with the same text, or still waiting - and the operating system is asked the same in the same order. The only difference is in the data of writes: where the one writes a request with its password, the other writes the request with the same service number, the same addresses and the same bytes after the password. So nothing a program can observe of its client depends on the password, other than through what the device does with it. A program that only reads the time, beside connecting, disconnecting, polling and sending requests it has made itself, does not use the password of its client at all, Latin-1 or not: everything is the same, the bytes written included.", "quantifier": "all pairs of passwords in Latin-1, all programs, all operating systems and devices, both transports, with and without key", "why_tests_cant": "All programs and environments; it relates two runs.", "anchors": ["elgas/client.py:ElgasClient", "elgas/connection.py:ElgasConnection.send", "elgas/application.py", "elgas/utils.py:pad_password"]}
{"id": "C101", "title": "Comparing parameter objects", "statement": "`==` between parameter objects read from a device: two objects of one type are equal exactly when the two records say the same at every attribute - the same bytes for integers, hexadecimal fields and addresses, the same bits for flags, the same text after cleaning, the same number for floats (-0.0 is 0.0; a rounded one to seven places), and both with or both without the optional tail; objects of different types never are. Reading the same record or the same parameter list again gives equal objects unless a number in it is a NaN: then every reading differs from every other, so a program that watches a device for changes by comparing sees one each time. Two parameter lists are equal exactly when they have the same number of records, of the same types, that say the same one by one. What a schema restores from its own dump is equal to the original, flags that come back as 0 and 1 included, unless it holds a NaN. `==` is symmetric and transitive.", "quantifier": "all pairs of records of all parsable types, all parameter lists", "why_tests_cant": "All pairs of byte strings; the tests compare few objects, none with a NaN.", "anchors": ["elgas/parameters/analog_quantity.py:AnalogQuantity", "elgas/parameters/gas_composition.py:GasComposition", "elgas/parameters/time_window.py:TimeWindow", "elgas/parser.py:ScadaParameterParser.parse", "elgas/parameters/factory.py:ParameterFactory"]}
{"id": "C102", "title": "Loading any document", "statement": "`schema.load` of the schema of a type for any JSON document, e.g. a configuration that a user has written or edited: it succeeds exactly for a dictionary with exactly the keys of the schema whose values the fields accept - integers of any sign, finite floats (their whole part) and strings that Python's int() reads for integer fields; floats, strings that float() reads and integers below 2^1024 - 2^970 for float fields (the nearest double; infinities and NaN only where the field does not check); true, false, numbers 1 and 0 and the strings of two fixed lists for boolean fields; strings for strings; lists of strings; dictionaries of exactly the gas components; null for the attributes that a device may leave out and for the owner's SIM number of a modem, but not for the decimals of a flow rate - and the object has, in the order of the schema, the values for which the entries are taken. Every other document raises ValidationError. Each attribute depends only on its own entry, and the order of the entries does not matter. Only the schema of the difference base counter loads nothing at all: for the documents that are a difference counter it raises TypeError. Dumping any object of the right types, also one made with the constructor, succeeds, and loading the dump gives the same object back unless it holds None where that is not allowed, or an infinity or NaN in a checked field: then the dump is refused. What was loaded from any document is loaded again from its dump. For parsed objects this agrees with C61, for JSON text with C96.", "quantifier": "all JSON documents, all registered types, all objects with values of the types of the schema", "why_tests_cant": "All documents, of any size and nesting; all integers and floats.", "anchors": ["elgas/parameters/factory.py:ParameterFactory", "elgas/parameters/difference_counter.py:DifferenceCounterSchema", "elgas/parameters/difference_counter.py:DifferenceBaseCounterSchema", "elgas/parameters/gas_composition.py:GasCompositionSchema", "elgas/parameters/time_window.py:TimeWindowSchema", "elgas/parameters/analog_quantity.py:AnalogQuantitySchema"]}
{"id": "C103", "title": "Time changes nothing", "statement": "The timeout of a transport, the readings of the clock, the segments in which bytes arrive and the empty reads between them change nothing that a program of connects, disconnects and calls can see: take two clients made with the same arguments except for the timeout (none, positive, zero or negative), on operating systems whose calls have the same outcomes and whose handles have the same bytes and errors to read in the same order; then every action has the same outcome, the operating system is asked the same in the same order with the same data, and the same bytes have been taken from every stream. In particular no call ever gives up because of its timeout, and the timeout may be changed at any time between actions. The timeout only bounds one read of the transport: the clock is read when it begins and after each byte that is not the end character, no byte is asked for once a reading has shown that the timeout is over, and what is returned without end character is what had come when it was; with a timeout of zero or less a read returns single bytes. (A program that sends, disconnects and then asks for the response can tell: what the one read of `send` got depends on the time.)", "quantifier": "all pairs of timeouts, clocks and segmentations, all programs of connects, disconnects and calls, all operating systems and devices, both transports", "why_tests_cant": "It relates two runs, for all schedules of arrival.", "anchors": ["elgas/transport.py:Timeout", "elgas/transport.py:BlockingTcpTransport.recv_until", "elgas/transport.py:SerialTransport.recv_until", "elgas/client.py:ElgasClient.next_event", "elgas/client.py:ElgasClient.send", "elgas/connection.py:ElgasConnection.next_event"]}
{"id": "C104", "title": "Interrupted calls", "statement": "A call can be stopped at any moment by an exception that does not come from the library (KeyboardInterrupt, the handler of an alarm - the only way to get out of a call that waits for a device, since no call gives up by itself). The requests that have ended before have the outcome and the effect they have without the interruption, and of the one under way at most its own request line has been written, once. What is left of a client that was ready is one of three: it is as ready as before; or it waits for the answer, and then every later call is refused with LocalElgasProtocolError, also after connecting anew, and nothing is written any more; or, and every call that returns has this moment, just before it returns, the connection is free but the answer has stayed in the buffer: then the next call of any kind that is transmitted and receives anything returns this old answer if it is of the kind it asks for, and else is refused and leaves the connection waiting; it never returns anything else. Setting the state to IDLE and emptying the buffer repairs the connection in all three cases. Without interruption the steps come to what the call does.", "quantifier": "all programs of requests, all calls with all arguments, all moments (numbers of steps), all operating systems, devices and timings, both transports, encrypted or not, all later calls", "why_tests_cant": "The moment of the interruption is arbitrary; tests cannot place an exception between two statements, let alone all pairs.", "anchors": ["elgas/client.py:ElgasClient.send", "elgas/client.py:ElgasClient.next_event", "elgas/client.py:ElgasClient.read_parameters", "elgas/connection.py:ElgasConnection.send", "elgas/connection.py:ElgasConnection.next_event", "elgas/state.py:ElgasState.process_event", "elgas/transport.py:BlockingTcpTransport.recv_until"]}
{"id": "C105", "title": "Arguments of any type", "statement": "Nothing checks the types in the signatures; for the values None, bool, int, float, str, bytes, list of ints, date, time, naive and aware datetime and any object without the methods used: a client is made exactly if the text of the password (`str` of it) has at most six characters, the password id is a number from 801 to 849 (a float included) and the key counts as false or can be made into bytes. The password is that text: None gives the password 'None', bytes up to three characters the text b'...', longer bytes, dates and times are refused. A key that counts as false (0, '', None) is no key: nothing is encrypted; a key n > 0 is n zero bytes, so encryption_key=16 silently encrypts with a key everybody knows; a str raises TypeError. With a key and a key id that is neither None nor a number the client is made, but no call ever returns or writes anything. A call whose arguments are numbers (True is 1) and datetimes is the call with these; the offset of an aware datetime is dropped, so one and the same moment given in two time zones sets two different clocks, and cryout has no effect. Otherwise the call raises what the first argument that does not fit raises, in the order of the request (archive: TypeError, ValueError out of range; numbers: AttributeError, OverflowError; times: AttributeError, ValueError before 2000); nothing is written, but the client waits for an answer for ever and every later call is refused - except a write_time of something without isoformat, which does nothing at all.", "quantifier": "all argument values of these types for the client and all its calls, all programs, environments and ciphers", "why_tests_cant": "A test tries a few values of a few types; that no other argument changes a request or revives a client needs all of them.", "anchors": ["elgas/client.py:ElgasClient", "elgas/utils.py:to_secret_str", "elgas/utils.py:to_secret_byte", "elgas/utils.py:datetime_to_bytes", "elgas/application.py:WriteTimeRequest.to_bytes", "elgas/application.py:ReadArchiveRequest.to_bytes", "elgas/application.py:ReadArchiveByTimeRequest.to_bytes", "elgas/application.py:ReadDeviceParametersRequest.to_bytes", "elgas/connection.py:ElgasConnection", "elgas/security.py:CipherContext.encrypt"]}
{"id": "C106", "title": "Interrupted connects and the way back", "statement": "Also connect() and disconnect() can be stopped at any moment by an exception from outside. A stopped connect() has done nothing, or everything, or - and every connect() that opens a handle has this moment - the operating system has opened a handle that the transport does not have: whatever the program does afterwards, it never again asks the operating system anything about this handle, so it is never closed by the client. A stopped disconnect() has done nothing, or everything, or - every disconnect() has this moment too - the handle has been shut down or closed and the transport still has it: then connect() raises RuntimeError and does nothing, and the next disconnect() that comes back takes it away, with CommunicationError at most. Neither changes the connection. The way back after any program, stopped any number of times in any of its connects, disconnects and calls: set the state of the connection to IDLE, empty its buffer, disconnect() (ignoring CommunicationError); whatever a program does with the client from then on - connect() and the rest - has exactly the outcomes, and asks the operating system exactly the things, it would have and ask with a newly made client; so sessions with a device that follows the protocol are again as they should be (C83).", "quantifier": "all clients, programs, moments of interruption (numbers of steps) in connects, disconnects and series of requests, all operating systems and devices, both transports", "why_tests_cant": "The moments of the interruptions are arbitrary, as is the history before the way back.", "anchors": ["elgas/client.py:ElgasClient.connect", "elgas/client.py:ElgasClient.disconnect", "elgas/transport.py:BlockingTcpTransport.connect", "elgas/transport.py:BlockingTcpTransport.disconnect", "elgas/transport.py:SerialTransport.connect", "elgas/transport.py:SerialTransport.disconnect", "elgas/state.py:ElgasState", "elgas/connection.py:ElgasConnection"]}
{"id": "C107", "title": "Comparing answers", "statement": "Two answers of a device (the objects returned by the client, by `next_event` and by `from_bytes`) compare equal exactly if they answer the same service and their bodies agree in the parts that a program gets to see: all of the body for values; all but the last two bytes (a CRC that is never checked) for the time; nothing for the confirmation of a written time; the two numbers, whether the end mark is zero, and the data for a page of parameters; the archive, three of the four bytes of the record id, and the data for archive records. So a program that polls a device and compares the answers misses no change in them and sees no other one. Call messages compare equal exactly if they agree between the length and the 141st byte, the station and the firmware version as texts. Between objects of the same class `<`, `<=`, `>`, `>=` are a total order that agrees with `==`, so that sorting has exactly one result; between classes they raise TypeError. Answers with a time are ordered by the clocks of the devices, answers with archive records by archive, id of the oldest record and data; but pages of parameters are ordered by their data, not by the number of their objects.", "quantifier": "all pairs of accepted bodies of all services, all pairs of complete lines, encrypted or not, all pairs of call messages, all requests and answers, all lists of answers", "why_tests_cant": "It relates all pairs of byte strings; that no two different bodies give equal answers needs injectivity.", "anchors": ["elgas/application.py:ReadInstantaneousValuesResponse", "elgas/application.py:ReadTimeResponse", "elgas/application.py:ReadDeviceParametersResponse", "elgas/application.py:ReadArchiveResponse", "elgas/application.py:ReadArchiveByTimeResponse", "elgas/application.py:WriteTimeResponse", "elgas/application.py:CallRequest", "elgas/utils.py:bytes_to_datetime"]}
{"id": "C108", "title": "What arrives when writes fail partway", "statement": "For a new client used in any way by connect, disconnect and calls, with any operating system. Everything it writes, to whichever handle, is in order the requests of the calls of the program, one complete line each, at most one per call (read_parameters one per page), encrypted exactly if there is a key and a key id. All writes but the last one succeeded: once a write raises or never comes back, nothing more is written to any handle, also after connecting anew, and every later call raises LocalElgasProtocolError. A write that fails may have got any part of its bytes through. So, whatever parts get through, what arrives through a handle is all the lines written to it, or all but the very last line written by the whole program and of that one a part that does not end: the device never gets two requests run together, and never gets anything after an incomplete one. But if a program then sets the state to IDLE and empties the buffer and goes on with the same handle, without connecting anew, the device never gets the next request: what it gets is one line made of the part and the request.", "quantifier": "all clients, programs, operating systems, outcomes of writes, handles and parts of failed writes that get through, with and without key", "why_tests_cant": "Which write fails, and after how many of its bytes, is up to the operating system and the network.", "anchors": ["elgas/client.py:ElgasClient.send", "elgas/transport.py:BlockingTcpTransport.send", "elgas/transport.py:SerialTransport.send", "elgas/connection.py:ElgasConnection.send", "elgas/state.py:ElgasState.process_event"]}
{"id": "C109", "title": "Connections with arguments and attributes of any type", "statement": "An ElgasConnection is created exactly from addresses that are numbers in 0..65535 and 0..255 (bools and finite floats among them), a password that has a length of at most 6 (a text, bytes or a list) and a password id that is a number in 801..849; the arguments become its attributes as they are, and it has a cipher context unless the key or the key id is None (an empty key counts). Everything else is refused with TypeError or ValueError. With numbers, a text and bytes it is the connection of the declared types, and in every history of send, receive_data and next_event it then behaves as that one; assignments to its password, password id, key and key id make no difference. receive_data of anything but bytes changes nothing, and raises TypeError unless the data counts as false. An idle connection sends a request, if its body can be built, exactly if the key id, the key and the addresses can go into it: a byte, 16 bytes, numbers of two and of one byte; otherwise it raises what the first of these raises that cannot (TypeError, ValueError, AttributeError, OverflowError), and waits for an answer all the same. With such an attribute it never sends a request in any history without assignments, so a connection created with a float as an address never does. next_event delivers the same for a float as key id as for the number it equals, though such a connection cannot send. With a key that is not bytes or a key id that equals no byte, nothing is delivered any more after an encrypted response.", "quantifier": "all arguments of the modelled types, all connections, events, random values, bodies up to 65500 bytes and histories of operations", "why_tests_cant": "Nothing checks the types when an attribute is assigned, and the checks of the constructor let floats pass; whether a request can be built shows only later, for every combination of attributes and every history.", "anchors": ["elgas/connection.py:ElgasConnection", "elgas/connection.py:create_cipher_context", "elgas/security.py:CipherContext.encrypt", "elgas/security.py:CipherContext.decrypt", "elgas/frames.py:Request.to_bytes"]}
{"id": "C110", "title": "What is printed tells everything but the secrets", "statement": "Two request or response objects print the same text (repr) exactly if they are equal, or, when their passwords are SecretStr, equal but for the password: class, times to the microsecond, numbers, texts, bytes and archive can be told from the text. The same holds for frames (class and every field), for connections made by clients and for clients on the same transport (everything but password and key). So if the printed logs of two sends are the same, the requests are the same but for the password, and if the printed logs of two next_event calls that returned a response are the same, so are the responses, whatever else the connections were.", "quantifier": "all requests, responses, frames, connections and clients, all texts and bytes inside them, call stacks, and ways in which non-ASCII characters and archives print", "why_tests_cant": "A text is shared by infinitely many candidate objects; ambiguity needs quotes, commas and dropped zeros at the right places inside any of the fields.", "anchors": ["elgas/connection.py:ElgasConnection.send", "elgas/connection.py:ElgasConnection.next_event", "elgas/utils.py:SecretStr", "elgas/application.py", "elgas/frames.py"]}
{"id": "C111", "title": "The cipher is AES-128 in CBC mode", "statement": "With the cipher security.py uses, an encrypted message is: the length of the data (two bytes, little-endian), the key id, and the CBC encryption under AES-128 as FIPS-197 defines it - over the field GF(2^8), with the one S-box that is the affine map of the inverse - with the key as initialisation vector, of the data, less than sixteen random bytes, and the CRC of everything before it; and exactly such messages are decrypted, to that data.", "quantifier": "all keys, data, random bytes and messages", "why_tests_cant": "2^128 keys and 2^128 blocks; test vectors fix a handful.", "anchors": ["elgas/security.py:CipherContext.encrypt", "elgas/security.py:CipherContext.decrypt"]}
{"id": "C112", "title": "A decrypted forgery tells the key", "statement": "Because the key is also the initialisation vector: if a message whose second ciphertext block is zero and whose third ciphertext block repeats the first is decrypted (announcing at least 48 bytes), then the exclusive or of the first and third sixteen bytes of the result is the key. For every key and every repeated block there are such messages, and encrypt makes them from suitable data.", "quantifier": "all block ciphers, keys, messages and repeated blocks", "why_tests_cant": "It is a relation between the key and the data that holds for every cipher; no test of a round trip shows it.", "anchors": ["elgas/security.py:CipherContext.encrypt", "elgas/security.py:CipherContext.decrypt"]}
{"id": "C113", "title": "Where the exceptions of a transport come from", "statement": "Every exception that leaves connect(), disconnect(), send() or recv() of a transport is either a RuntimeError without a cause, raised because there is no handle (for connect: there is one) and before the operating system is asked anything, or comes from the first exception object that the operating system raised in this very call: an OSError is the __cause__ of a new CommunicationError, every other object passes as it is. Conversely no exception that a call meets is lost (recv() of a transport with a timeout may return before meeting it).", "quantifier": "all transports, histories, outcomes of the operating system and segmentations of what arrives before an exception", "why_tests_cant": "The exception may come after any bytes, empty reads and partial lines, at any call of any history.", "anchors": ["elgas/transport.py:BlockingTcpTransport", "elgas/transport.py:SerialTransport"]}
{"id": "C114", "title": "With a lock around every call threads are one program", "statement": "When threads share one client and make every call under one lock, then in every schedule the calls that have ended have, in the order of their ends, exactly the outcomes and effects of one program that makes them one after the other; at most the thread that holds the lock is in a call; every response has the type its own request asks for; a call all of whose predecessors returned is never refused; and two schedules in which the same requests end in the same order give the same outcomes and leave the same client behind.", "quantifier": "all numbers of threads, plans, schedules with switches between any two accesses to shared state, ciphers, connections and deliveries", "why_tests_cant": "The schedules, plans and deliveries are unbounded; the guarantee is about all interleavings.", "anchors": ["elgas/client.py:ElgasClient.send", "elgas/client.py:ElgasClient.next_event", "elgas/connection.py:ElgasConnection", "elgas/state.py:ElgasState.process_event"]}
{"id": "C115", "title": "With a lock around every method threads are one program", "statement": "When threads share one client and hold one lock while they are inside a read or write method, then in every schedule the methods that have ended have, in the order of their ends, exactly the results of one program that calls them one after the other, also read_parameters with its many requests; when nobody holds the lock the client is in the state in which that program leaves it; as long as the methods return the threads together are the program that calls these methods in this order; and a method whose predecessors all returned gives exactly what it gives to that program. There is no deadlock: when no thread can move, all methods have ended and the lock is free, or the thread that holds it waits for the operating system.", "quantifier": "all numbers of threads, lists of calls, schedules with switches between any two accesses to shared state, ciphers, connections and deliveries", "why_tests_cant": "The schedules, calls and pages are unbounded; the guarantee is about all interleavings.", "anchors": ["elgas/client.py:ElgasClient.read_parameters", "elgas/client.py:ElgasClient.send", "elgas/client.py:ElgasClient.next_event", "elgas/connection.py:ElgasConnection"]}
{"id": "C116", "title": "Configurations in any layout", "statement": "The text of a configuration can be edited or laid out anew by any tool before it is loaded. Reading it accepts exactly the texts of the grammar of JSON (RFC 8259: white space of four kinds between any two tokens, all escapes and surrogate pairs in strings, raw characters, numbers without leading zeros and with either letter for the exponent; a comma too much, a control character in a string, or anything behind the value is refused) and Python's NaN, Infinity and -Infinity, every text has one meaning - integers exactly, numbers with fraction or exponent as floats, of a key given twice the place of the first and the value of the last - and every other text raises ValueError. What `dumps` writes is in the grammar. So `loads` of the configuration schema depends only on what the text means: a configuration that was exported and laid out anew gives the types, data and names that were exported. (Lone surrogates are not modelled.)", "quantifier": "all texts, all documents, all configurations", "why_tests_cant": "All texts of any length and nesting, accepted or not.", "anchors": ["elgas/integration.py:UtilitarianConfigurationSchema", "elgas/integration.py:UtilitarianConfigurationObjectSchema"]}
{"id": "C117", "title": "Trying again until it is done", "statement": "A program that wants a list of calls made, and does not give up: it makes a client, connects and calls; when a call does not return, or an attempt is given up after any number of calls, it makes a new client and goes on from the first call that has not returned, as often as it takes. Every attempt may end in any way: no connection is opened, any first part of the bytes written reaches the device, any first part of the answers arrives, a read or write raises or never comes back; transports, timeouts and clocks can be others each time. Whenever one looks, the values the program has are exactly those the device should give back to the first calls of the list, made one after the other in one session; the device is where it should be after those calls, or the next call has been carried out as well, though its value was lost (if calls are given up, no more than one, the first that is left, has been carried out too much). So once no call is left the values and the device are those of one undisturbed session: nothing is lost, nothing is done out of order, and what was carried out twice has left no trace. And there is always an attempt that brings all the calls that are left. (The parameter lists asked for are such that they can be parsed; otherwise that call raises every time.)", "quantifier": "all lists of calls, all devices, any number of attempts, each breaking off at any point of either direction, with and without key", "why_tests_cant": "All histories of attempts and crash points, of any length.", "anchors": ["elgas/client.py:ElgasClient", "elgas/connection.py:ElgasConnection.next_event", "elgas/connection.py:ElgasConnection.send", "elgas/transport.py:BlockingTcpTransport", "elgas/transport.py:SerialTransport", "elgas/state.py:ElgasState"]}
{"id": "C118", "title": "Devices that go on by themselves", "statement": "A device need not hold still between requests: its clock runs, its values change, records are added, its parameters are edited by somebody else. Let it be something else for every request line, with only the key and the password the same, and answer each line as it should at that moment. However the answers are cut and delivered, every call of a session gives back what the device is at one single moment while that call is made, and its moments are those of the request lines it writes, so that they follow each other as the calls do: no call gives back a mixture of two moments, none gives back a moment before the call or one already seen. So reading the time again and again gives what the clock says each time, in that order, and a clock that never goes back is never read going back. `read_parameters` alone takes one moment for each of its pages: if the parameters do not change meanwhile it gives back exactly the list there is; if they do, it can give back a list that the device never had (the first objects of the old one and the others of the new one), without any error.", "quantifier": "all sequences of states of a device, one for each request; all lists of calls; all segmentations, transports, timeouts and clocks; with and without key", "why_tests_cant": "All histories of a device that changes by itself, interleaved with all sessions.", "anchors": ["elgas/client.py:ElgasClient", "elgas/client.py:ElgasClient.read_parameters", "elgas/connection.py:ElgasConnection.next_event", "elgas/connection.py:ElgasConnection.send", "elgas/transport.py:BlockingTcpTransport.recv", "elgas/transport.py:SerialTransport.recv"]}
