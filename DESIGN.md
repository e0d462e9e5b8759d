# Formal model of u9n/elgas in Lean 4 — design

The code in `/repo` is Python; it is read as text and never run here.  The model is a
*shallow embedding*: each Python function becomes a total Lean function with the same
branches, exceptions are values (`Except PyErr α`), mutable objects are passed and returned.

## Layout

| directory | content |
|---|---|
| `Verif/Py/Basic.lean` | Python primitives used by the code (bytes, slices, `int.to_bytes`, `pop`, exceptions) |
| `Verif/Model/*.lean` | the model, one module per Python module, every definition cites `/repo` lines |
| `Verif/Spec/*.lean` | small specifications: escape table, rotate-XOR, bitwise CRC, frame layout, calendar, CBC, field layouts, number tables, protocol histories, page protocol, … |
| `Verif/Lemmas/*.lean` | helper lemmas |
| `Verif/Props/*.lean` | the property theorems (`Cnn_*`) with concrete cases (`example`s) that meet their hypotheses |
| `Verif/Conformance.lean` | the vectors of `/repo/tests`, replayed on the model (see below) |
| `tools/` | generators of `properties.jsonl`, `MANIFEST.json`, the parameter tables of the model, the axiom list below; the mutation runner |
| `seeded/` | wrong programs (edits of the model) and the log of what they broke |

`Verif/Model/{ParamNames,Parameters,AttrNames}.lean` and `Verif/Spec/Layouts.lean` were produced with scripts
from the repository text; they are committed as sources and need no generation step.  The layouts (offset tables)
are independent of the statement-by-statement model: `C59`/`C60` prove that executing the statements gives the table.

## Conventions of the model

* Bytes are `List UInt8`; Python `int` that can be negative or large is `Int`/`Nat` (unbounded);
  `str` is `List Char` (code points; lone surrogates are not representable).
* Exceptions: `PyErr` has one constructor per exception class that the code can raise.
  `except ValueError` also catches `UnicodeEncodeError` (a subclass), as in Python.
* Slices use one function with Python's clamping and negative-index rules.
* `random` is an explicit argument (the draws); theorems quantify over all draws.
* AES is a parameter of the model: any `BlockCipher` with `D k (E k b) = b` and `E k (D k b) = b` on 16-byte
  blocks.  CBC mode (as used through `cryptography`) is modelled concretely, and `Verif/Model/Aes.lean` +
  `Verif/Lemmas/Aes.lean` define AES-128 (FIPS-197, see C111) and prove that it is such a cipher, so every theorem about
  "all block ciphers" applies to it; the conformance vectors with real ciphertexts use it.
* Floats are the IEEE-754 bits on the wire, and `round(x, 7)` is a symbolic constructor on them; `Model/Float` says
  which double each of them is (CPython's correctly rounded `round`, in exact rational arithmetic; 2994 random bit
  patterns were compared with CPython outside the project: no difference).
* The transport/OS is a script of outcomes (every list of outcomes is allowed), the clock a sequence of readings;
  running out of script is the outcome *blocked* (still waiting), so "returns" always means "returns within the
  given script" and "never returns" is a statement about all scripts.

## What is modelled

| file of `/repo/elgas` | model | not modelled |
|---|---|---|
| `utils.py` | everything: escaping, redundancy bytes, CRC, BCD, timestamps, `pop_many`, `pretty_text`, `parse_ip_address`, `pad_password`, `return_characters`, secret types | the amount of `pop_many` is a natural number |
| `frames.py` | all four frame classes and the factory, `repr` | |
| `security.py` | `data_padding`, `CipherContext`, `encrypt`, `decrypt` | OpenSSL itself (replaced by the cipher parameter / AES-128) |
| `application.py` | every request and response class, `to_bytes`/`from_bytes`, `repr` | the unused enumerations |
| `state.py`, `connection.py` | state table, `send`, `receive_data`, `next_event`, `raise_error`, factory of PDUs, constructor with validation, `repr`, log records, assigning attributes from outside (`Model/Assign`), arguments and attributes of other types (`Model/AnyConn`) | values of types other than those of `Model/Args` |
| `transport.py` | both blocking transports, `Timeout`, `recv`, `recv_until`, `send`, life cycle, log records | what host/port/speed mean to the OS; tracebacks; exception chaining is modelled at the transport only (`Model/Chain`): client and connection pass its exceptions on |
| `client.py` | every public method, over any transport (`Model/Client`), over the two of `transport.py` (`Model/Program`), shared by tasks that switch at OS calls (`Model/Tasks`, `Model/Work`) or by threads that switch between any two accesses to shared state (`Model/Threads`, under a lock: `Model/Lock`), `repr`, log records | arguments of other types than those of `Model/Args`; the log of arguments of another type than declared; structlog itself (layout of a line, filtering by level); switches inside `self.buffer += data` and inside `sendall` |
| `parser.py`, `parameters/*.py` | the parser, both factories, every class's `from_bytes`, every schema's `dump`/`load`, for parsed objects and for any JSON document | marshmallow beyond the field types used (error messages, `many`, `partial`) |
| `integration.py` | all classes and schemas, JSON text (`dumps`/`loads`, `Model/JsonText`) | `dict()` of a list of pairs; the digits `repr` chooses for a float (a parameter, required to be a decimal number that `float` reads back, `Spec.FloatTextOk`); lone surrogates |
| `exceptions.py` | as constructors of `PyErr`; the texts the repository gives them, those of the attrs validators and of the Latin-1 codec (`Model/Texts`) | texts of the interpreter, of other libraries and of the OS |

Further limits: a parser step that raises loses the partly consumed array (no caller looks at it);
CPython's limit of 4300 digits in `int(str)`/`str(int)` does not occur for the numbers concerned; memory and
recursion limits are not modelled.  Texts of exceptions are modelled in `Model/Texts` only,
and those of the interpreter and of other libraries as one opaque value.

## Properties and how they are proved

See `properties.jsonl` for the full English statements.  Properties that the code violates are kept in the form
"exact behaviour + the consequence a user would not expect" (marked *Defect* there); the model proves the exact
behaviour for all inputs and a concrete counterexample to the naive expectation.  All claims are proved in full;
none is partial.

| id | modelled | proof |
|---|---|---|
| C01–C03 | `escape_characters` (three sequential replaces), `return_characters` | replaces fused into one per-byte table (spec), induction on the data |
| C04 | the three loops over bytes | fold fusion to XOR/sum/rotate closed forms, induction |
| C05–C06 | frame decoding + redundancy codes | linearity of XOR/rotate, case on the corrupted position; facts about single bytes by kernel evaluation over all 256 values (complete, not a sample) |
| C07–C08 | CRC table generation and loop | table entry = 8 bit-steps for all 256 entries; step linear and injective; induction |
| C09–C14 | `Request`/`Response` `to_bytes`/`from_bytes`, `ResponseFactory` | list algebra on slices; C11, C12: exact characterisation + counterexample |
| C15–C18 | `to_bdc`, `from_bcd`, datetime conversions, `datetime` validity | digit lemmas of decimal rendering; byte facts |
| C19–C20 | `pretty_text`, `parse_ip_address` | list lemmas; injectivity of decimal rendering |
| C21–C22, C28, C69 | request `to_bytes` | layout equation, exact domain and exceptions; injectivity by splitting from the right |
| C23–C27 | response `from_bytes`, `CallRequest` | slice algebra; parser-monad offset lemmas; calendar spec for C27 |
| C29–C31, C63, C71 | `CipherContext`, CBC over any block cipher | CBC characterised block by block (spec), inverse and prefix laws by induction on blocks; CRC lemma C08 for tampering |
| C32–C46 | `ElgasConnection` as `step : Conn → Op → Conn × Outcome` | exact answer relation (`Answers`, C44) for every buffer; invariants over all histories |
| C70, C72–C74 | the same, whole histories | buffer and awaited type as functions of the observed history; monotone "head of buffer" invariant for C73; exception sets propagated through every definition, with attaining runs for each |
| C47–C51, C66 | transports over OS-outcome scripts, `Timeout` over clock readings | induction on scripts |
| C52–C55, C65, C67 | `ElgasClient` over a transport script, and over the modelled transports | composition with C45/C47, induction on chunks, pages and calls |
| C56–C60 | `ScadaParameterParser`, factory, all `from_bytes` of `elgas/parameters` | symbolic execution of the statement language proved sound, layouts compared by kernel evaluation, induction on records |
| C61, C68 | marshmallow `dump`/`load` of the field kinds used; the configuration container | generic round trip per field table; composition parser → schema → container → schema |
| C62 | `SecretStr.__repr__` over a call stack | induction on the stack |
| C64 | `pop_many` | induction |
| C75–C78 | `repr` of every object (`Model/Repr`), every function again with its log records (`Model/Log`, proved to erase to the function without them) | censoring of a value tree by induction; a relation proved for one exchange lifted to all calls and histories; the records about the pages of `read_parameters` as an inductive specification over the answers (`Spec/PageLog`, also C91) |
| C79 | a reference device as relations (`Spec/Device`: requests read from bytes, state kept, answers allowed), fed with what the client model writes | uniqueness of framing, sealing and body layout composed; induction over pages, calls and sessions; existence of answers by construction |
| C80 | `Damaged` (one byte changed, lost or added) on the escaped line, then the modelled connection and client | case analysis of what a shifted escape reading can decode to (`Turned`), each excluded by the length field, XOR, sum or rotated XOR of two accepted frames |
| C81 | `Damaged` on a line handed over by the modelled client, the reference device of C79 as reader (`Understands`: any escaping) | as C80 for the request types; a lost end character by the length field |
| C82 | client model over `recvs` of the transport model, reading a stream of device answers (`Serves`) | pieces returned by successive `recv()` per answer (C67 lemma) turn `Serves` into `Feeds`; then C79; that such answers exist for every device and call, however delivered: `Props/Served` (also C83), by composing, call by call, what the client does with the answers cut anywhere |
| C83–C86 | client and transport in one object with the operating system as a script (`Model/Program`: `connect`, `disconnect` and the calls; what opening, shutting down, closing and writing lead to, what every handle has to read) | a connected client refines the client of C52–C82 (`World.sys`), so that C79/C82 apply; what calls leave alone (`Keeps`); induction over actions and sessions |
| C87 | the same model; whether a program is connected is read off its actions and their results (`connected` in Spec/Program) | invariant: connected iff the transport holds a handle; induction over actions with `OneAtATime` as continuation |
| C88 | the client of `Model/Program` cut at its OS calls into a machine of cooperatively scheduled tasks (`Model/Tasks`) | what is left of a call as a function of where its task waits; invariant: the rest of the only call under way, from here, is that call made alone; induction over schedules; number of unread bytes as measure for progress |
| C89 | the same call cut between any two accesses to the state, the buffer and the handle (`Model/Threads`) | the rest of the only call under way as a function of its point; state and wire facts per point; induction over schedules; the two defects by symbolic execution of one schedule for every client, request and answer |
| C90 | the constructor arguments left at their defaults elsewhere (`Model/Own`: `elgas_state`, `cipher_context`, `elgas_connection`) | every function of connection and client commutes with exchanging password, password id, key and key id of the connection; every state is reached by some new connection, so the theorems about connections with default parts carry over |
| C91 | the log records of whole programs, with those of `connect` and `disconnect` and the transport as printed (`Model/ProgramLog`, proved to erase to `Model/Program`) | an invariant of the log so far and the client, kept by each step of an exchange, lifted to calls and programs; `C47_recv_cases` for what is read |
| C92 | programs with any number of objects (`Model/Heap`: the objects as numbered cells that connections and clients refer to, so that state objects, connections and transports can be shared) | a call on a cell acts as the call on the connection or client it stands for (`conn_step`, `client_step`) and leaves all objects it does not refer to; induction over the program for each kind of sharing; the device theorems C79 per call |
| C93 | the double of a single, `round(x, d)` in exact rational arithmetic (`Model/Float`); IEEE values, nearest integer and nearest double as specifications (`Py/Float`, `Spec/Float`) | existence and bounds of the exponent, rounding to the nearest integer scaled by the exponent; the layouts (C59) say which attributes are rounded |
| C94 | the read and write methods cut at their exchanges (`Model/Work`) as what the tasks of `Model/Tasks` do; the reference device of C79 (`SharedIdeal`, `Sharing`) | C88 makes the history a sequence of exchanges and refusals; induction over it with the device: what each task has collected of its pages is a prefix of the objects from its first one on (the objects do not change); the exchanges by the lemmas of C79, C82, C83 |
| C95 | a reader of Python literals, numbers, ISO times and the texts of connections (`Spec/ReadBack`), independent of the printing functions of `Model/Repr`, `Model/Log`, `Model/ProgramLog` | reading undoes printing character by character (no written character begins like the closing quote), hence for every string of them; then C91 gives the records of a program |
| C96 | `json.dumps` and `json.loads` with their defaults (`Model/JsonText`), schemas loading JSON values instead of symbolic ones; `repr` and `float` of floats are parameters with the guarantee `Spec.FloatTextOk` | reading undoes writing by induction on the document (fuel twice the length of the text), strings character by character, numbers by their parts; loading a dumped value through the text is computed field by field from the round trip of C61 and the bits of C93 |
| C97 | a client object with all attributes, 17 kinds of assignment, replacing the client (`Model/Assign`); programs of actions and assignments (`Spec/Assign`) | two objects that differ only in attributes no method reads behave alike for ever (lock-step induction over the program); every written line comes from a connection with the cipher context of the start; after the two resetting assignments the state equals that of a new client; an unreadable buffer head is an invariant |
| C98 | the client on an operating system (`Model/Program`), the device (`Spec/Device`), the complete lines of a stream and answers that arrive up to some point (`Spec/Crash`) | induction over the calls: as long as whole answers are read the calls are the ideal ones; at the first answer that is not read in full the loop of `next_event` cannot return, the state stays unequal to IDLE and every later call is refused; then C83 for the second session and idempotence of every call on the device |
| C99 | every function that raises, repeated with the text of the exception (`Model/Texts`; texts of the interpreter, of other libraries and of the OS are `foreign`); the texts and their causes as a relation (`Spec/Texts`) | erasing the texts gives the functions of the other properties; a calculus of "raises only exceptions with these texts" through the do-blocks and the receive loop, with the protocol state and the OS script as causes; the frame, decryption and constructor texts by cases in both directions |
| C100 | two clients on the same operating system script (`Model/Texts`), made with different passwords (`Spec/Blind`) | lock-step induction over the program: receiving never reads the password, a request with a Latin-1 password is serialised exactly when the one with the other is, with the same bytes after the password; the pages of `read_parameters` by induction over what is left to read; for programs with no call but `read_time` (`Props/Unused`) every step commutes with exchanging the password, so the calls of the operating system are equal |
| C101 | the `__eq__` that attrs generates, Python's `==` of numbers, strings, lists and None, IEEE 754 equality (`Model/Equal`); agreement of two record bodies location by location (`Spec/Equal`) | location by location: integers, hexadecimal texts and addresses determine their bytes, a float its bits up to the sign of zero, a rounded one its seven places (rounding again changes nothing); `==` of numbers is equality of their values, so transitive. The two objects compared share no float object (attrs versions differ there); hashing and ordering of the objects are not modelled |
| C102 | the conversions of the marshmallow fields for any JSON value, the `post_load` hooks (`Model/Edited`); which values a field accepts and for what it takes them, as relations (`Spec/Edited`) | field by field: the conversions compute the relations (a double is determined by being nearest and by its sign; the whole part is unique), then entry by entry; the facts about the schemas by evaluation over all types. `int(s)`, `float(s)` and `repr` of floats are parameters; dumping a value of a wrong type is not modelled (rendered as an error) |
| C103 | nothing new: `Model/Program`, `Model/Transport`; environments that differ in timing only, `Monotonic`, `WithinTime` (`Spec/Timing`) | the loop of `next_event` for any pieces computes what it would compute byte by byte; then a relation between two clients (equal up to clock, timeout, segments and, while they wait in vain, the buffer) that every action keeps; the clock of one `recv` by induction on the content |
| C104 | the small steps of `Model/Threads`, one thread, abandoned after any number of steps; `stopped`, `wants`, `cutCall`, `Claimed`, `Leftover` (`Spec/Interrupt`); the moments are those between two accesses to what the client keeps (state, buffer, operating system); a write of the operating system that is stopped half-way is not included; `connect` and `disconnect` are in C106 | the invariant of C89, plus: what has been decoded stays at the head of the buffer until it is emptied; that the steps come to the end of the call by induction on (unread data, point) |
| C105 | `Model/Args`: a type of Python values and the operations the code applies to arguments (`str`, truth, `bytes`, `append`, `to_bytes`, comparison, attributes of times), the constructor, `send` and every call with them | each operation decided by type; `to_bytes` = password then fields, first field that fails; calls with fitting arguments reduced to the typed calls, so every other theorem applies to them; waiting clients by induction over programs |
| C106 | `Model/Cut`: `connect` and `disconnect` in steps (`Lap`, `World.lap`), one question to the operating system or one assignment each; programs of actions, stopped connects, disconnects and series of requests, and repairs (`Deed`, `deeds` in `Spec/Cut`); an interruption inside a call of the operating system counts as before or after it | the steps compared with `World.connect`/`disconnect` case by case; a relation (`Frames`) that every deed satisfies and that composes: arguments, cipher context, password and kind of transport stay, what the operating system has in store only shrinks, and a handle nobody has is not asked for |
| C107 | the comparison methods that `attr.s` adds to the classes of application.py (`Model/Compare`); what a body shows, the seconds of a date and time, lists in order (`Spec/Compare`) | the six bytes of a timestamp are determined by what they denote (C17), little-endian numbers by their bytes, so the attributes determine the shown parts; the order attribute by attribute, then by induction on the tuples; dates in order are seconds in order (year, month and day lengths); uniqueness of sorting from antisymmetry. attrs' rule (same class, tuples of attributes) is trusted |
| C108 | no new code; which part of each write arrives (`Spec/Arrival`: `arrived`) | every exchange makes at most one write and leaves the connection waiting unless it succeeded; induction on pages and on the program with C85; streams of lines as in C98 |
| C109 | `Model/AnyConn`: the constructor and every method of a connection with the values of `Model/Args` as attributes, and assignments to them | validators decided by type; typed attributes reduced to `Conn` by a relation kept by every operation; otherwise the first attribute that cannot be written decides; a line that cannot be opened stays first in the buffer |
| C110 | `Model/Repr`, `Model/Log` (objects and their `repr`); `Spec/Shown`: archives that print like numbers or members, blotted connections | printed fields are peeled off one by one by induction over the object: each kind of value can be told from its text up to the next `,` or `)` |
| C111 | `Model/Aes` (tables and lists); `Spec/Aes`: FIPS-197 with field arithmetic and states of rows and columns | multiplication is linear in one factor, so inverses are unique after checking eight multiples of each byte; round keys and rounds by induction; C30, C31 for this cipher |
| C112 | nothing new | the plaintext block of a ciphertext block is its decryption exclusive or the block before it (the key for the first one); the data of the forgery are made backwards |
| C113 | `Model/Chain`: the methods of the transports with exception objects and `__cause__`; `__context__` and tracebacks are not modelled | by cases; the reading loop by induction on what arrives; erasing the objects gives `Model/Transport` |
| C114 | `Model/Lock`: `Model/Threads` with one lock that every call is made under (the lock is the user's, `/repo` has none) | the invariant of C89 for the relation `Serial`; mutual exclusion; `Serial` is deterministic |
| C115 | `Model/Lock` with the methods of `Model/Work` cut at their requests; the lock is kept between the pages of `read_parameters` | C114's history is replayed method by method (`Between` two pages the rest of the method is what it was); by induction on the history |
| C116 | `Model/JsonText` (the reader of `json.loads`); the grammar of RFC 8259 as an inductive relation between texts and documents (`Spec/JsonGrammar`) | a text of the grammar is read whatever follows it, by induction on the derivation; what is read has a derivation, by induction on the depth; a dictionary is determined by the order of its keys and their values |
| C117 | no new code; attempts with new clients and programs that go on from the first call that has not returned (`Spec/Retry`) | C98 for each attempt, or the client without a handle; induction on the attempts with the device ahead of the values by at most the first call left, which repeating does not change; that an attempt can finish: C83 (sessions exist for every device) |
| C118 | no new code; devices that are something else for each request line (`Spec/Moments`) | one exchange at the moment of its request line (C79's lemmas), induction on the pages and on the calls with the lines, deliveries and moments left; the torn list: two pages served by two devices (`Served`) |
| C10, C26, C27, C58 (numbers) | enumerations | tables of the wire numbers in `Spec/Codes.lean`, every member compared |

## Defects of the code found while proving

* Request frames do not read back: byte orders of addresses differ between `to_bytes` and `from_bytes` (C11); frames shorter than 16 bytes with fitting redundancy bytes are accepted (C12).
* Timestamps outside 2000–2099 are refused or encoded in 7 bytes (C18); leading zeros of SIM/modem ids are lost (C27); archive record ids are read modulo 2^24 (C26); the `cryout` flag is ignored (C28).
* An encrypting connection accepts plaintext responses (C33); the key is the initialisation vector (C71), so that a decrypted forgery tells the key (C112); `crc()` cannot check a message (C63); nothing but the service number ties a response to its request (C70).
* A `send` that fails after the state change leaves the connection waiting (C36); a damaged frame, noise or an echo at the head of the buffer blocks the connection for good (C39, C73); bytes after a delivered frame are dropped (C43); combined error bits are not reported (C41).
* No call ever ends because of the timeout of its transport (C103). A call that is stopped from outside leaves the client unusable, or, just before it returns, leaves its answer to the next request (C104).
* A handle that is opened while `connect()` is interrupted is never closed; an interrupted `disconnect()` can leave a closed handle in the transport (C106).
* Setting the state to IDLE after a write that failed partway, without connecting anew, makes the device see the next request run together with the rest of the failed one (C108).
* `encryption_key=16` encrypts with sixteen zero bytes, `encryption_key=0` with nothing, `password=None` is the password "None"; the offset of an aware `datetime` is dropped; an argument of a wrong type makes the client unusable (C105).
* The constructor of a connection accepts addresses, password ids and key ids that are floats; with a float as an address or key id no request can ever be sent, and the first attempt leaves the connection waiting (C109).
* Rounding to seven places makes every `digit` up to 0.00000005 zero (C93).
* An object that holds a NaN differs from a second reading of the same bytes (C101).
* Pages of parameters compare by their data, not by the number of their objects: sorting them does not put them in order (C107).
* The schema of the difference base counter loads no document: its class takes no arguments (C102).
* Connections that share a state object accept the response to each other's request on the wrong connection, and refuse it on the right one (C92).
* A call before `connect()` or after `disconnect()` makes the client unusable even after connecting (C84); so does any failed call (C85); a response that arrives unasked answers the next request of its kind, in a later session if need be (C86).
* Threads that share a client can have two requests outstanding, get each other's answers or an answer twice (C89).
* Assigning a new key to a client or to its connection is silently without effect: the old key, or none, is used (C97); addresses are not checked when assigned, and an assigned password or key is no longer hidden by `repr` (C97).
* `password_id` has no effect; a client with a ready-made connection ignores its own key and checks nothing (C90).
* A closed peer makes `recv` spin (C48); `read_parameters` can be kept going forever by the device (C54); one failed call makes the client unusable (C55).
* `CORRECTION_COUNTER`, `DIFFERENCE_BASE_COUNTER`, `DEVICE_ERROR`, `SUM_OF_ALARMS` cannot be parsed (C58); three schemas load to dictionaries, flow rates without `decimals` do not load (C61).
* A `disconnect` that fails gives the connection up and logs nothing (C91).
* Without encryption the debug log shows the password that the client keeps as a secret (C76).
* An empty encryption key silently disables encryption (C65).
* Texts of exceptions that mislead (C99): reading from a closed serial transport says "TCP transport not connected."; a wrong DRC is reported with the received byte twice; a wrong CRC with the two values exchanged; a password that Latin-1 cannot encode is partly shown by the exception.

## Checking the model and the theorems

* *Conformance*: `Verif/Conformance.lean` replays the vectors of `/repo/tests` (86 examples, kernel-evaluated), so the
  model agrees with the recorded behaviour of the code on every input the repository itself tests.
* *Concrete cases* stand beside the theorems.  Writing them uncovered two theorems about endless paging whose
  hypotheses no state met; they were restated.
* *Wrong programs*: `seeded/mutants_*.json` are edits of the model; `tools/mutate.py` applies each to a scratch copy,
  rebuilds and records which theorems fail (`seeded/LOG.jsonl`).  Survivors led to stronger theorems (column
  `tightened`), most recently the number tables of `Spec/Codes.lean`.

## Trusted base

* Lean 4.33.0's kernel.  No Mathlib module is imported.  No axioms are added; no compiled evaluation is used
  (`decide +kernel` evaluates in the kernel).
* The reading of the Python code documented by the line citations, and the Python semantics in `Verif/Py`.
* For properties stated through model functions (e.g. "`send` returns") the specification refers to the model's
  entry points under their Python names; everything else in `Verif/Spec` is defined without the model, or only over
  its data types.
* Axioms of every property theorem (`#print axioms`, written by `tools/gen_axioms.py`):

<!-- axioms -->

**propext, Classical.choice, Quot.sound** (406 theorems): `C03_escape_length`, `C03_unescape_line_total`, `C03_unescape_raises_iff`, `C04_checksum`, `C04_drc`, `C04_lrc`, `C04_range`, `C05_single_byte_corruption`, `C05_single_byte_corruption_factory`, `C06_adjacent`, `C06_exchange`, `C06_exchange_8`, `C06_exchange_adjacent`, `C07_crc_is_modbus_swapped`, `C07_crc_range`, `C08_crc_detects_bursts`, `C08_crc_detects_two_bytes`, `C09_factory_roundtrip`, `C09_response_roundtrip`, `C100_password`, `C101_again`, `C101_list_again`, `C101_lists`, `C101_restored`, `C101_same_type`, `C101_symmetric`, `C101_transitive`, `C101_types`, `C102_again`, `C102_attributes`, `C102_base_counter`, `C102_base_counter_like`, `C102_json`, `C102_load`, `C102_null`, `C102_order`, `C102_own_entry`, `C102_parsed`, `C102_refused`, `C102_roundtrip`, `C103_changed`, `C103_no_time`, `C103_recv_stops`, `C103_timing`, `C104_call`, `C104_interrupted`, `C104_leftover`, `C104_moment`, `C104_uninterrupted`, `C105_accepts`, `C105_cases`, `C105_fault`, `C105_hung`, `C105_made`, `C105_odd_key_id`, `C105_password`, `C105_too_long`, `C106_lost`, `C106_recover`, `C106_sessions`, `C107_archives`, `C107_call`, `C107_chronological`, `C107_equal`, `C107_lines`, `C107_order`, `C107_pages`, `C107_sorted`, `C108_arrives`, `C108_glued`, `C108_requests`, `C109_created`, `C109_float`, `C109_never_opens`, `C109_never_sends`, `C109_reads`, `C109_run`, `C109_sends`, `C109_typed`, `C10_length_field`, `C10_request_layout`, `C10_response_layout`, `C10_service_byte`, `C10_service_decoded`, `C110_archives`, `C110_client`, `C110_connection`, `C110_frame`, `C110_log_event`, `C110_log_send`, `C110_plain`, `C110_secret`, `C111_aes`, `C111_decrypt`, `C111_encrypt`, `C112_forgeries`, `C112_key_revealed`, `C113_not_lost`, `C113_raised`, `C113_same`, `C114_not_in_the_way`, `C115_no_deadlock`, `C115_not_in_the_way`, `C115_one_program`, `C115_program`, `C116_configuration`, `C116_dumps`, `C116_grammar`, `C116_layout`, `C116_one_meaning`, `C116_other`, `C116_relaid`, `C117_can_finish`, `C117_finished`, `C117_retried`, `C118_session`, `C118_torn`, `C11_request_from_bytes`, `C11_request_roundtrip_fails`, `C11_request_roundtrip_iff`, `C12_accepted_is_serialised`, `C12_iff`, `C12_min_length`, `C12_short_frame_accepted`, `C12_short_lengths`, `C12_unique`, `C13_factory_total`, `C13_from_bytes_total`, `C14_request_error`, `C14_request_range`, `C14_response_error`, `C14_response_range`, `C15_from_bcd`, `C15_injective`, `C15_roundtrip`, `C15_to_bcd`, `C16_roundtrip`, `C17_reencode`, `C18_before_2000`, `C18_from_2100`, `C18_shifted_body`, `C20_dotted_decimal`, `C20_injective`, `C21_read_archive`, `C21_read_archive_by_time`, `C21_read_archive_by_time_decoded`, `C21_read_archive_by_time_error`, `C21_read_archive_decoded`, `C21_read_archive_error`, `C21_read_parameters`, `C21_read_parameters_decoded`, `C21_read_parameters_error`, `C21_read_values`, `C21_read_values_error`, `C21_write_time`, `C21_write_time_decoded`, `C21_write_time_error`, `C22_alphabet`, `C22_block`, `C22_injective`, `C22_ten_bytes_iff`, `C22_unencodable`, `C23_accepts_iff`, `C23_errors`, `C23_lossless`, `C24_read_time`, `C25_read_parameters`, `C26_record_id`, `C27_fields`, `C27_outcome`, `C27_protocol`, `C27_reply`, `C29_decrypt_encrypt`, `C29_roundtrip`, `C30_encrypt_outcome`, `C30_encrypt_shape`, `C31_body_tampering`, `C31_decrypt_errors`, `C31_decrypt_iff`, `C31_length_tampering`, `C32_encrypted`, `C32_plaintext`, `C33_plaintext_accepted`, `C35_alternating`, `C36_stuck_until_response`, `C37_chunking`, `C38_poll_effect`, `C38_poll_idempotent`, `C39_blocked_forever`, `C39_damaged_frame_blocks`, `C39_no_more_requests`, `C40_error_raised`, `C40_poisoned`, `C41_combined_bits_not_reported`, `C41_write_reported_as_success`, `C42_stray_end_blocks`, `C43_rest_discarded`, `C43_second_response_lost`, `C44_answers`, `C44_returns_iff`, `C44_wrong_service_error`, `C44_wrong_service_raises`, `C45_encrypted_answer`, `C45_exchange`, `C46_send_exactly`, `C46_send_raises`, `C46_send_succeeds`, `C47_recv_cases`, `C47_returns_line`, `C47_segmentation_irrelevant`, `C48_recv_spins`, `C49_exceptions`, `C51_bounds`, `C51_clock_jump`, `C51_expired_iff`, `C51_stays_expired`, `C52_answered`, `C52_exchange_iff`, `C52_read_archive`, `C52_read_archive_by_time`, `C52_read_instantaneous_values`, `C52_read_time`, `C52_write_time`, `C53_continues`, `C53_pages_iff`, `C53_read_parameters`, `C54_endless`, `C54_needs_end`, `C54_overflow`, `C55_call`, `C55_constructor`, `C55_exchange`, `C55_history`, `C55_ready_or_stuck`, `C56_iteration`, `C56_split`, `C57_count`, `C57_every_input`, `C57_exceptions`, `C58_missing_arguments`, `C59_attribute`, `C59_values`, `C60_errors`, `C60_none_iff`, `C60_outcome`, `C61_flow_rate_without_decimals`, `C61_identical`, `C61_roundtrip`, `C63_crc_depends_on_padding`, `C63_crc_embedded`, `C63_crc_outcome`, `C65_no_mixture`, `C65_on_the_wire`, `C66_recv_bytes`, `C66_recv_until`, `C67_exchange`, `C67_exchanges`, `C67_nothing_lost`, `C68_dump`, `C68_load`, `C68_load_object`, `C68_plain_object`, `C68_restore`, `C68_roundtrip`, `C69_body`, `C69_wire`, `C70_addresses_ignored`, `C70_replay_accepted`, `C70_stale_accepted`, `C71_prefix`, `C71_repeated`, `C72_answer`, `C72_state`, `C73_echo`, `C73_first_byte`, `C73_noise`, `C74_client_exceptions`, `C74_parse_attained`, `C74_poll_attained`, `C74_poll_exceptions`, `C74_send_attained`, `C75_client`, `C75_objects`, `C75_plain_connection`, `C75_requests`, `C76_history`, `C76_plain_password`, `C76_sent`, `C76_unencrypted`, `C77_encrypted_log`, `C78_no_response`, `C78_pages`, `C78_read_parameters`, `C78_read_time`, `C78_read_values`, `C78_response`, `C78_traffic`, `C78_write_time`, `C79_served`, `C79_session`, `C79_unchanged`, `C79_understood`, `C79_wrong_password`, `C80_call`, `C80_exchange`, `C80_forever`, `C80_poll`, `C81_meaning`, `C81_request`, `C82_served`, `C82_session`, `C82_wrong_password`, `C83_served`, `C83_session`, `C83_sessions`, `C84_unconnected`, `C85_fresh_or_spoiled`, `C85_history`, `C86_stale`, `C86_unasked`, `C87_life_cycle`, `C87_one_handle`, `C87_unconnected`, `C88_accepted`, `C88_one_by_one`, `C88_own_answer`, `C88_progress`, `C89_foreign_answer`, `C89_stale_answer`, `C90_continued`, `C90_key_ignored`, `C90_on_the_wire`, `C90_password_length`, `C90_served`, `C90_session`, `C91_encrypted_log`, `C91_life_cycle`, `C91_pages`, `C91_read_parameters`, `C91_read_time`, `C91_read_values`, `C91_received`, `C91_received_all`, `C91_sent`, `C91_unlogged`, `C91_write_time`, `C92_clients`, `C92_connections`, `C92_crossed`, `C92_shared_answer`, `C92_shared_state`, `C92_shared_transport`, `C92_shared_transport_served`, `C93_attribute`, `C93_error`, `C93_finite`, `C93_idempotent`, `C93_large`, `C93_monotone`, `C93_not_finite`, `C93_parsed`, `C93_rounded`, `C93_single`, `C93_zero`, `C94_accepted`, `C94_alone`, `C94_answered`, `C94_device`, `C94_order`, `C94_refused`, `C95_address`, `C95_bytearray`, `C95_int`, `C95_lives`, `C95_received`, `C95_sent`, `C95_time`, `C95_transport`, `C96_ascii`, `C96_configuration`, `C96_errors`, `C96_restore`, `C96_text`, `C97_address_out_of_range`, `C97_buffer_only`, `C97_keeps_key`, `C97_never_encrypts`, `C97_reset`, `C97_shown`, `C97_shown_connection`, `C97_state_only`, `C98_crash`, `C98_lines`, `C98_resume`, `C99_communication`, `C99_construct`, `C99_construct_only`, `C99_decrypt`, `C99_frame`, `C99_helpers`, `C99_library`, `C99_password_shown`, `C99_runtime`, `C99_same_client`, `C99_same_functions`, `C99_says`

**propext, Quot.sound** (86 theorems): `C01_unescape_escape`, `C02_escape_rejects`, `C02_escaped_shape`, `C02_stream_of_frames`, `C03_unescape_units`, `C08_three_bytes_can_collide`, `C100_unused`, `C104_claimed`, `C104_reset`, `C105_no_time`, `C105_offset`, `C105_same_call`, `C105_same_program`, `C106_uninterrupted`, `C108_nothing_more`, `C108_only_last`, `C109_no_bytes`, `C111_sbox`, `C114_one_program`, `C114_order_only`, `C114_own_answer`, `C118_clock`, `C118_forward`, `C118_set`, `C118_unchanged`, `C15_negative`, `C17_decode_errors`, `C17_decode_iff`, `C19_cut_at_last_nul`, `C19_idempotent`, `C19_result_clean`, `C19_shape`, `C26_archive`, `C27_leading_zeros`, `C27_trailing`, `C28_sync_only`, `C30_deterministic_without_padding`, `C34_accepts_iff`, `C34_refuses`, `C35_at_most_one_outstanding`, `C35_sending_a_response_resets`, `C36_failed_send_leaves_awaiting`, `C36_failing_send_exists`, `C36_refused_unchanged`, `C37_incomplete`, `C46_constructor`, `C48_needs_input`, `C48_silent_peer`, `C49_disconnected`, `C49_one_handle`, `C49_reconnect`, `C50_leak`, `C51_restart`, `C51_time_left`, `C53_complete`, `C53_requests`, `C55_refused`, `C55_stuck`, `C56_data_argument`, `C57_bad_input`, `C57_result`, `C57_terminates`, `C58_schemas`, `C58_type_byte`, `C58_type_numbers`, `C64_pop_many`, `C69_not_on_the_wire`, `C74_send_exceptions`, `C78_send`, `C84_raises`, `C85_spoiled`, `C86_several`, `C89_own_answer`, `C89_two_outstanding`, `C89_undisturbed`, `C90_constructor`, `C90_password_id`, `C90_unused`, `C90_unused_client`, `C95_bytes`, `C95_str`, `C97_addresses`, `C97_context`, `C97_password`, `C97_timeout`, `C97_without_effect`

**propext** (14 theorems): `C106_connect`, `C106_connect_moment`, `C106_disconnect`, `C106_disconnect_moment`, `C106_still_held`, `C26_accepts`, `C26_record_id_fails`, `C34_idle_accepts`, `C42_receive`, `C50_closes`, `C58_difference_base_counter`, `C58_dispatch`, `C62_censored`, `C68_restores_unique`

**no axioms** (6 theorems): `C21_read_time`, `C49_connected`, `C51_none_and_zero`, `C51_restart_defects`, `C62_to_secret_byte`, `C66_empty_terminator`
