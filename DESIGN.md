# Formal model of libvortex-1.1 in Lean 4 — design

## 1. What is here

* `properties.jsonl` — the semantic properties (regenerated by `tools/mkprops.py`).
* `lean/Verif/…` — the model and the proofs. For every topic `X`:
  * `Verif/Model/X.lean`  the model: total functions, one per C function, each with a comment
    citing file and lines of `/repo` and every simplification;
  * `Verif/Spec/X.lean`   (where a separate specification is needed) the small independent
    vocabulary in which the property is stated — it never mentions the model;
  * `Verif/Proof/X.lean`  helper lemmas;
  * `Verif/Props/X.lean`  the property theorems, named `Cnn_…`, with `example`s showing that
    the hypotheses are met by concrete non-trivial cases, and with the negations where the
    code violates the English property.
* `MANIFEST.json` — property → theorems, with status.
* `seeded/LOG.jsonl` — seeded-bug experiments against the theorems.

## 2. Trusted base

* Lean 4.33.0's kernel. No `sorry`, no `admit`, no own axioms, no `native_decide`, no
  `bv_decide`. Theorems depend on at most `propext`, `Classical.choice`, `Quot.sound`
  (see `Verif/Audit.lean`, which prints the axioms of the property theorems).
* The faithfulness of the model to the C text: by inspection; every definition cites its lines.
* Meaning given to C: LP64 (int 32 bit, long 64 bit), two's complement, gcc's modular
  int conversion (`i32`, `u32` in `Verif/Model/CInt.lean`). Where the C code has undefined
  behaviour (reads outside an object, signed overflow) the model has a distinct outcome.
* The axl library (lists, hashes, streams, XML), libc, the OS and pthreads are not in /repo.
  They are assumed to do what their documentation says: axlList is a sequence, axlHash is a
  finite map whose insert replaces, mutexes exclude, condition variables may wake spuriously,
  sockets deliver a reliable ordered byte stream.
* Concurrency is modelled by interleaving of atomic steps; each step is a critical section or
  a single unprotected access. Weak memory effects are not modelled.
* Logging, statistics, reference-count string tags and allocation failure are not modelled
  except where a comment says otherwise.

## 3. Conventions

* A C `unsigned int` is a `Nat` with explicit `% 2^32` where C wraps; an `int` an `Int`.
* Bytes are `UInt8`, buffers `List UInt8`.
* "Connection is shut down" is an explicit outcome, never a silent default.
* Unbounded histories are lists of operations; theorems are by induction on them.

## 4. Plan per property

| id | model | proof |
|----|-------|-------|
| C01 | `vortex_support_itoa` as its two loops over explicit buffers | loop invariant; specification = `Nat.toDigits`-style positional value |
| C02 | `vortex_frame_build_header`, `get_int_value`, `get_unsigned_int_value`, `vortex_frame_get_header_data` over bytes | digit-scan lemma composed along the line |
| C03 | SEQ builder and parser | partial: fails for ackno 2^32-1 and 2^32-2 (sentinels); negations proved |
| C04 | `get_next`/`readline`/`receive_raw` over a socket that yields chunks; state = pending_line, buffer, last_frame, remaining | simulation: invariant relating pending state to the consumed prefix of the stream |
| C05 | CHECK_AND_INCREASE_BUFFER and the length of the header writer | bound on header length by digits; invariant on buffer size |
| C06 | parser reading from a line followed by unknown memory; reading beyond = distinct outcome | partial: negation witness `MSG 0 1` ; safe for lines with enough fields |
| C07 | sender window state + SEQ handling + frame size | invariant relating mod 2^32 state to unbounded ghost counters |
| C08 | send round/packet builder | induction on rounds |
| C09 | check_incoming_seqno and allocation arithmetic | partial: negation for sizes that truncate to negative; safe for size ≥ 0 |
| C10 | update_incoming_buffer | invariant; partial if wrap breaks it |
| C11 | product of C07 and C10 models with two FIFO wires | invariant of the product system |
| C12, C13 | common_rpy with stored_replies and incoming_msg | refinement to an abstract in-order reply scheduler |
| C14 | get_next_msg_no and outstanding list | invariant over histories |
| C15 | check_msg_no | invariant Nodup + characterisation |
| C16, C17, C18 | process_socket receive path | invariants / refinement to concatenation |
| C19 | serialize hash and handler tasks as interleaved steps | invariant: delivered = prefix of arrival order |
| C20 | waiting_msgno queue and invoke_received_handler | invariant |
| C21 | mime header size/rendering | equality of lengths, partial for content |
| C22, C23 | MIME processing and header list | loop invariants |
| C24 | copy/join/are_joinable/are_equal | algebra |
| C25, C26 | sequencer ready set with three thread kinds as interleaved steps | invariant; negation for the lost wake-up |
| C27 | get_next_channel, channel table | invariant |
| C28 | start message handling decision logic | case analysis |
| C29 | not_connected / on_close lists under interleaving | invariant |
| C30 | ref counters under interleaving | invariant |
| C31, C32, C34 | containers | refinement to list / map |
| C33 | async queue with waiters, interleaved | invariant |
| C35 | automatic_resize, remove, dispatcher | invariant; negation where exceeded |
| C36, C37 | timeval arithmetic | linear arithmetic; negation at 1000000 |
| C38 | pool lookup/flag as separate steps | negation by race; single-thread partial |
| C39 | file feeder + sequencer | induction on frames |
| C40 | alive state machine | invariant; negation for failed channel creation |
| C41 | pull event queue and masks | invariant; negation for the timeout unit |
| C42 | send_raw loop | induction; negation for tries exhausted |
| C43 | close handshake of two peers | invariant of the product system |
| C44 | mask list, profile table | decision logic |
| C45 | two endpoints made of the functions of the other models, joined by two byte streams; then any number of channels on one connection | invariant of the product system: octets in the stream = encoding of frames sent and not read; measure for termination; for several channels the frames of each form a stream of their own |
| C46 | `send_msg` with and without `more`, under the outstanding limit | invariant; negation with limit one |
| C47 | senders waiting on the outstanding limit, replies and shutdown as interleaved steps | invariant; negation for a broken connection |
| C48 | same system as C25 | invariant; negation for the late insertion |
| C49 | `__vortex_greetings_build_message` as writes at increasing offsets of a buffer of `buffer_size` octets | equality with the rendered message; bound on the offset; negation for the missing room |
| C50 | frames received during the greetings, by initiator and listener; the exchange as interleaved steps of both | characterisation of the accepted frame sequences; invariant of the product system; negation for long greetings |
| C51 | marshalling of calls to octets, an XML reader, the parsing of calls | round trip by mutual structural induction on values; negations for the values lost or changed |
| C52 | marshalling and parsing of responses | the same; negations for the none value and CDATA end marks |
| C53 | the loop over the services on a call and on channel start | induction over the services; negations |
| C54 | the places of a call or an array, the objects released | induction over the additions; negations for assignment by position |
| C55 | the listener side of SASL: session, validation callback, properties kept, mask; gsasl is an environment that asks the application | two-phase induction over the history; negations |
| C56 | the same, with NULL pointers as a distinct outcome | invariant: open SASL channels imply a session; negations |
| C57 | the checks of `vortex_sasl_start_auth` and the loop over the replies | induction over the replies; negations |
| C58 | both sides of the TLS negotiation; OpenSSL is an environment that returns any value and error | induction over the history of the listener and over the calls of the initiator; negation |
| C59 | the same, with the handlers used to read | invariant of the listener after `<proceed />`; case analysis; negations |
| C60 | the requests of the initiator, with and without waiting | case analysis over all environments; negations |
| C61 | the SASL model, with the connection replaced in between | induction over the history; negation |
| C62 | the automatic negotiation and the notification of connection actions | case analysis over all environments, using C58 |
| C63 | the connection through a proxy, for any octets sent by it | line reader inverts writing a line; case analysis; negations |
| C64 | the host in the middle: two connections, any results of reads and writes, the reader that drops connections | invariant over all histories; negations |
| C65 | the loop of the reader, its queue and lists, any other threads | invariant: references equal registrations; a connection stays in queue or list; negation |
| C66 | as C65 | a measure that every step of the reader lowers; counting; negations |
| C67 | as C65 | the events of each step; counting; the measure of C66; negations |
| C68 | as C65, with the thread that changes the mechanism | invariant of the hand shake; negation |
| C69 | one connection, the handler of its context, the tasks of the pool, the clock | invariant: what the stamp means; counting of tasks and references; negation |
| C70 | one connection and the list of accept handlers, which can grow | invariant: calls are a prefix of the list; one outcome |
| C71 | threads that wait, step by step, the flag and the queue with its references | invariant: nobody is let out without an item; negation by schedules |
| C72 | one connection, the octets that arrived, the handlers | what one look does; invariants over runs; negation |
| C73 | connections with their listener, the steps of the call | invariant: after the visit the connections of the listener stay closed; negation |
| C74 | a set with its sizes as 32 bit integers and the arrays it has | refinement: the set is the list of what was added; negation |
| C75 | one round: the two loops over listeners and connections with their count of ready descriptors | induction over both lists; negation |
| C76 | the table of profiles and the global start handler, calls one after the other | refinement: what is answered is a function of the history of calls; negation |
| C77 | one profile: its records with their references, threads that register it and that run its start handler, step by step | invariant: references are counted exactly; negation by schedules |
| C78 | deliveries that wait or run, frames kept for ordered delivery, counts of references | invariants: every frame is in one place, references are counted exactly; negation |
| C79 | threads in `vortex_exit_ctx` step by step, the flag, the mutex, the list of cleanups | invariant: one thread at most is past the flag; progress of the list; negation by schedules |
| C80 | threads with a reference, step by step | invariant: references are counted exactly; negation by a schedule |
| C81 | the steps of one call, the queue with frames and marks, the close handler and the threads that call it | invariant: order of frames, marks only when the connection is down, who wakes the caller; negation by schedules |
| C82 | the steps of the waiter, of the sequencer and of the close handler | invariant: where the two pushes are; a dropped reply is never signalled |
| C83 | the two numbers kept of messages and replies; the loop as a function of what each round finds | invariant relating the numbers to the replies due; induction over rounds; negation |
| C84 | threads that wait and threads that change, the counter of waiters and the queue of tokens | invariant for a call that begins when all is quiet, and for one waiter; negation by schedules |
| C85 | the steps of the call that goes on, the count of references and who holds them | invariant: references = those of the engine, of the user and of the call; negation by schedules |
| C86 | the list of handlers and the loop with its position, changed between two rounds | invariant: those called are the first part of the list; negation by schedules |
| C87 | threads that call to close one channel, the mark on the channel; closing all channels as a function of the answers | invariant for any number of threads; induction over the channels; negation for all continuations |
| C88 | the check of the answer as a function of the cache and the answer, with the parser as parameter; threads that use one entry of the cache | induction over the answers; invariant; negation by histories |
| C89 | the calls under way with their steps, the table of channels, the references | invariants for any number of calls; negation by a schedule and for all continuations |
| C90 | channels with their counters and pointers, pools with their lists; blocking and use of a released pool are outcomes | invariant with the references about to be given back; negation by sequences of calls |
| C91 | the environment variables, the contexts, the threads between the first look and the mutex | invariant; negation for all values and by a schedule |
| C92 | the calls, the clock as a function, the rounds of the wait as a list, the name cache | induction over the rounds and the lookups; negation by concrete runs |
| C93 | the loop of the greetings exchange on top of the frame reader, the steps of making a connection | invariant over the rounds; simulation of the frame reader for delivery; negation by concrete runs |
| C94 | the fields of interrupted reads kept over a reconnection; the reader loop of C65 with reconnections | invariant over the reads and over the steps of the reader; negation by concrete runs |
| C95 | the greetings cache with its mutex, the blocks it owns and the connections pointing into them; the XML library is an arbitrary function | invariant over all interleavings, against a history of the events; negation for texts with a zero octet |
| C96 | the dispatch of messages of channel 0 over an arbitrary XML library, `atoi`, the decision about close requests | case analysis over all octets; exact description of the messages that crash; negation |
| C97 | the list of search paths with its mutex, a call to add one being three critical sections | invariant over interleavings about every prefix of the history; negation |
| C98 | the queue of the pool, each thread, each caller and the call that ends the pool, one step at a time | invariants over interleavings (where a task is; which threads are in which list; as many beacons as threads), a measure for the end; negation |
| C99 | the list of timed events with reference counts and addresses, and each thread that processes it, one critical section at a time | invariant over interleavings (references = places that use the event), induction over a pass; negation |
| C100 | one wait reply object with its reference counts, its queue, and each thread that uses it, one step between two points where others come in | invariant over interleavings (references = users), counting of frames; negation |
| C101 | the settings as nested elements, the hosts as a partial function of name and port, opening and relaying as mutually recursive functions that record connections, requests and sessions | induction over the hops and over the depth of the request; negation |
| C102 | the reader loop with the flag for held octets over the script of C04, in which a read may find no complete record at any place; the result of the TLS functions as a function of the errors | induction over the frames and over the reads; negation |
| C103 | client threads that ask for channels, the start messages, the server with deferred starts, and the two names as a transition system with check and write apart | invariants over interleavings, with the names taken from the history; negation |
| C104 | the configuration of a context, the limits of the process, the three levels of MIME settings, the uses, as a state with calls and results | induction over the calls; negation |
| C105 | setup objects, connections, listeners, descriptors and calls of handlers as a state with steps | invariants by induction over the steps; negation |
| C106 | wait reply objects, the list of those waiting and the unanswered messages of a channel as a state with calls | invariants by induction over the calls; negation |
| C107 | the texts written for channel 0, and what is read from errors; a reader of XML as specification | round trip through the reader, by induction over attributes and text; negation |
| C108 | fault strings, their memory, and the data of a channel as a state with calls | invariant by induction over the calls; negation |
| C109 | a heap of strings, values, structs, arrays and responses with reference counts, and the calls that change it | invariant (counts equal references, no cycles) by induction over the calls; release by induction on the references left; leaks by an infinite chain in a finite heap; negation |
| C110 | requests, handlers, waiting calls, queues and the removal of the pull API as a state with steps of threads | invariant (each request is in exactly one place) by induction over the steps; an invariant for the removal that waits for ever; negation |
| C111 | calls split into their system calls, the table of descriptors, the reader and the application as users of the listeners | three invariants (of a call; of descriptors and their owners; of references) by induction over the steps; concrete violations; negation |
| C112 | the table, its mutex, and for each thread the stack of calls and destroy functions it is in | balance of each pointer (stored = in the table + to destroy + destroyed + handed back) and the shape of the stacks by induction; a cost that each step of a thread lowers; concrete violations; negation |
| C113 | the loop that writes the text into its buffer; the four functions over any digest function | induction over the octets with the buffer after each; injectivity of the text; concrete violations; negation |
| C114 | calls, tasks, the frame handler of the channel with its pointer, messages without reply, frames not delivered | invariant over the operations while invocations are made one after the other; what remains to be done is reached; concrete violations; negation |
| C115 | the start handler, the loop over the services, the objects of calls, deferred replies | invariants over the operations: at most one reply always, the rest while the first service accepts; concrete violations; negation |
| C116 | per boot: its task, its channel, the copied name, the waiting call, the queue, the results; the allocated texts | what a step does to one boot, as a relation; invariant per boot; concrete violations; negation |
| C117 | `vortex_tls_verify_cert` over the octets of the common names and any content of the stack | comparison of the buffer with a C string; equivalence for ordinary names; concrete violations; negation |
| C118 | per call: its data, key, pool and id; the steps of creating a pool with its unprotected counter | invariant with unique ids for careful histories; released data traced to another call with a handler; concrete violations; negation |
| C119 | the struct functions over lists of members; the signature check over any list of types | inductions over the lists, from any position; equivalences for full structs; concrete violations; negation |
| C120 | objects with counters, events with up to three references, any history | the counter of each object is the sum of the references of live events and others, with a term for references in transit; negation by two histories |
| C121 | three threads and the rest of the program as interleaved steps, the decisions of the check as choices | inductive invariants over all interleavings; a rule that keeps the connection; negation by concrete schedules |
| C122 | the setup as a fold over settings, the request made of it, references as a counter | the last value of each item by induction over the settings; arithmetic; invariant of the counter; negation by concrete settings |
| C123 | caller, negotiation, queue and references as one transition system | invariant over all schedules with one notification; a count of references for the others; negations by concrete schedules |
| C124 | references, queue of messages and sending thread as one transition system | two invariants over all schedules; a closed channel as a trap; negations by concrete schedules |
| C125 | every notification as a frame: iterator, connection, action that runs, calls | invariant over all histories of overlapping frames; negations by concrete histories |
| C126 | table of descriptors, every new socket with the stage of its check | invariant on counts of descriptors over all schedules; negations by concrete schedules |
| C127 | settings, threads that write messages and the mutex of the log as one machine | the state agrees with the last calls of the history; invariant of the mutex over all schedules; negations by concrete histories |
| C128 | threads that start WebSocket listeners and the connections they accept as one machine | invariant of each connection over all histories; negations by concrete histories |
| C129 | searches of threads over the table of channels, whose mutex they hold, while channels start and end | invariants of each search and of the memory of channels; negations by concrete histories |
| C130 | threads that send, the thread that writes and the end of the context, step by step | invariants over all schedules; negations by concrete schedules, the loss of messages for every continuation |
| C131 | the references of one feeder, its pauses and the notification of its end, step by step | invariants over all schedules; negations by concrete schedules |
| C132 | the threads, memory and references of one context; starts that fail at each step, forks | invariants over all histories that follow the documentation; negations by concrete histories, the thread that is left for every continuation |
| C133 | the functions and user data of each family, mechanism and connection | a relation with the wish of the application, by induction over all histories of one family; negations by concrete histories, the function that stays for every continuation |
| C134 | the objects of a negotiation with their references, the data of the connection, its descriptor, the calls of the functions of the application | references are those of the data plus what was lost, by induction over all histories; the settings and files by a relation with the history; negations by concrete histories |
| C135 | the text of the interface file cut at braces, the escape with the size of its memory, the format | the loop over pieces equals a scan octet by octet (induction over the length); the scan of balanced text by induction over its nesting; the converse by induction over the open levels; negations by concrete texts |
| C136 | the files as a map, the standard input with its end, the question | lines by induction over the text; whole runs by induction over the files written; negations by concrete runs |
| C137 | the calls of the generated client, the tests of the generated dispatcher, the names of headers and files | the search is the first service of the section that the call asks for, by induction over the services; files by cutting names at `_`; negations by concrete interfaces |
| C138 | types, values in C and XML-RPC values as trees, with the generated conversions as functions of the type | round trip and shape by induction over the type and the items; negations for every array of strings, of doubles, of arrays, and by concrete values |
| C139 | the client function, the test, the function that calls the service and the reading of the reply, over the values of C138; the service is any function | the arguments by induction over the types; the cases of fault, NULL and value by computation; negations for all such calls |
| C140 | the objects allocated by `set_on_close`, the handles, the lists of handlers of the connections, the calls made to Python; specified by the fate of each handler through the history | invariant by induction over histories; negations for every history where a handler was called, belongs to another connection or came late |
| C141 | connections with role, state and number of references, Python objects, the reader as a holder of references; `close`, `shutdown`, collection, new objects | invariant: references are those of the objects, of the reader, of failed listeners and of a number of lost ones that never decreases; by induction over histories |
| C142 | one channel: the C handler, the two stored values, reference counts, frames waiting as tasks, threads waiting for the lock of the interpreter, calls that run | invariant: the stored values are the pair set last, references are those of the pair and of the running calls; by induction over histories |
| C143 | one connection: its pools with the object that made each, all objects of pools, references of these to the connection, calls of create handlers, data released | invariant: references count the objects that exist, every pool was made by an object with its handler, data is released with the last reference; by induction over histories |
| C144 | the two loops over the pattern and the final count, the test of each letter; Lua values as kinds | the loop is characterised by induction over the pattern: what is looked at and what is not |
| C145 | one queue: the table of references with the free list of `luaL_ref`, the items, calls between taking an item and having the lock | refinement of a first in, first out queue; invariant: references in use are distinct, outside the free list, and hold the values |
| C146 | the Lua stack of every thread, what each kind of call leaves in it and where the answer is read | the stack equals the list of values left by the history, by induction; the answer compared with a relation on the result of this call only |
| C147 | each kind of handler: how its result is parsed, when it is released, what an exception does | decision logic over every result, compared with a relation that does not know the parser |
| C148 | the pool of events, what the Python bindings keep for each, the context being finished | invariant that ties the state to the life of one event, followed from the calls only |
| C149 | the lock of every Lua state, threads that call handlers, functions that wait | invariant over every schedule: the lock of the state of the program is taken exactly by the thread inside |
| C150 | registration and delivery in their atomic steps, what the registry releases | invariants over every schedule, one for programs that keep what they register, one for those that register between deliveries |
| C151 | properties, the one SASL context of a connection, negotiations in their atomic steps | invariants over every schedule (values, notifications), and over those without overlap (contexts and sessions) |
| C152 | the counter of a queue and the variables that point to it | invariant over every sequence of calls: the counter is the number of holders |
| C153 | the list of masks and the checks, in the steps between which the lock is free | invariant over every schedule: what a check asked is the beginning of the list; a measure for the end |
| C154 | the call as a function of what the system answers and who connects | case analysis over every world |
| C155 | reading of decimal numbers, with the second try | round trip for every number written, and its converse |
| C156 | validation of the document and the loop over its listeners | induction over the listeners, and a characterisation of the valid documents |
| C157 | `stat` over a table of names with links, the tests, the names built from tokens | induction over the links followed and over the tokens |
| C158 | the environment as a table, the four calls, `strtol` | induction over the calls after the one that decides, round trip for numbers |
| C159 | the report as a function of what Python answers | induction over the lines and over the text |
| C160 | the function that completes the names | decision logic over all texts, induction for the comparison |
| C161 | calls, outcomes and references as a state machine | invariant over all careful histories, induction for what is lost for ever |

## 5. What is modelled

| model | code |
|-------|------|
| CInt, Itoa | C integer conversions; `vortex_support_itoa` |
| Frame, SendBuffer | building of headers and SEQ frames (`vortex_frame_factory.c:349-859`), the packet builder of the sending thread and its buffer |
| Parse, GetNext | header parser, `readline`, `receive_raw`, `vortex_frame_get_next` |
| Window, Sender, Peers | flow control of both sides, segmentation of messages, SEQ frames, two peers on frame queues |
| Reader, Replies, Serialize, WaitReply | receive path of `vortex_reader.c:342-626`, reply path `__vortex_channel_common_rpy`, serialized delivery, `wait_reply` |
| Mime, FrameOps | MIME headers of outgoing and incoming frames, copy, join, comparison |
| SendLimit, Sequencer, SendRaw, Feeder | outstanding limit, the ready set of the sending thread, `vortex_frame_send_raw`, payload feeders |
| Queue, Containers, Time, ThreadPool | `VortexQueue`, `VortexAsyncQueue`, `VortexHash`, the error stack, time arithmetic and timers, size of the thread pool |
| ChannelNumbers, Start, Handshake, OnClose, RefCount | channel table and numbers, handling of start requests, close handshake of two peers, close handlers, reference counters |
| ChannelPool, Alive, Pull | channel pools, the alive extension, the pull API |
| Link | the composition of the above for one channel of a connection |
| LinkMany | the same for any number of channels, which share the octets of the connection, the reader, the buffer of the sequencer and the end of the connection; the channels exist from the beginning |
| Greetings | construction of the greetings message; processing of the frames received by initiator and listener; the exchange over channel 0 (sending threads, window test); not: TLS, serverName, the XML parser (the text is handed over as is) |
| XML-RPC | marshalling and parsing of calls and responses, the choice of the service, the places of calls and arrays; doubles are texts (their printing with `%g`, which keeps six digits, and `strtod` are not modelled); the axl parser is replaced by a small reader of elements, text and CDATA without attributes or entities, an assumption about axl; not: the generated stubs, the invocation over the channel, reference counts of structs and arrays |
| SASL | listener: start, messages, validation by the application, properties kept with the connection, mask; initiator: start, loop over the replies, notifications; gsasl is an environment (it may return any verdict, and it may be stepped again after it is done), texts are numbers; not: the lifetime of property strings, two authentications started at the same time, base64 |
| TLS | initiator: request, handshake loop, checks, notifications, synchronous variant, automatic negotiation; listener: request, both preread handlers; SASL state on the new connection; OpenSSL is an environment; not: reading and writing with OpenSSL, certificates and keys, verification helpers |
| HTTP CONNECT | reading the answer of the proxy, reporting; not: sending the request, the proxy settings |
| TUNNEL | passing octets between the two connections; not: the start of the tunnel and its settings |
| reader loop | registration, building the set, calling handlers, ending, visiting, changing the mechanism; not: cleaning up wrong descriptors, waiting with select |
| idle notification | all; the clock does not go backwards |
| accepting | calling the accept handlers and registration; not: opening listeners, the greeting on the listener side, greetings sent at accept |
| waiting for listeners | wait and unlock, with the queue |
| port sharing | the check before a frame is read, and installation of handlers |
| listener shutdown | the call with `also_created_conns`; the visit is one step of the reader (C67 models how it is delivered) |
| waiting sets | poll and epoll: creation, growth, addition, dispatch, system limit; not: the system calls, the select set |
| select round | the loops over listeners and connections; not: the recovery after a failed select |
| profiles | registration, changes, unregistration, the choice of handlers, content type settings, references of a record; not: the iteration functions and the data that a frame delivery carries |
| frame delivery | both levels of received handlers with the ordered delivery: references and frames; not: allocation failures |
| end of a context | `vortex_exit_ctx`, cleanup functions, `vortex_ctx_unref`; stopping the modules is one step |
| `vortex_channel_get_reply` | one caller, one queue, one channel; not: a queue shared by channels |
| waiting for replies to be written | `vortex_channel_wait_until_sent`, `vortex_channel_block_until_replies_are_sent` with what they look at |
| waiting for a change of a hash | `vortex_hash_lock_until_changed` and the notification made by the functions that change a hash |
| `vortex_connection_close` | the references and the results; closing the channels is one step that may fail |
| handlers for channels added and removed | the loop and the functions that change the list; not: the global handlers |
| calls of `vortex_channel_close`, `vortex_connection_close_all_channels` | the negotiation is one step; not: calls from inside the close handler |
| creating a channel, the side that asks | the steps of `__vortex_channel_new` and the cache of answers; not: the XML parser, the server name, memory not released on early failure |
| references to the channels of pools | calls one after the other; not: the release of the connection, refusals of the peer when a pool is closed |
| timeouts of contexts | the four functions; environment values as numbers; not: failure of `setenv` |
| connecting a socket | name lookup with its cache, `connect`, the wait; results of the system as parameters; not: socket options, the log |
| making a connection | the steps of `__vortex_connection_new`, the greetings exchange; system results and the XML parser as parameters; not: installed actions, the write of the greetings |
| connecting again | `vortex_connection_reconnect` on top of the exchange of C93 and the reader loop of C65; not: release of channels and pools, `channel_ref` of the kept frame |
| the greetings cache | `__vortex_connection_parse_greetings`, the cache, and the functions reporting features, localize and profiles; not: the XML library (any function of the octets), a missing DTD, failing allocations, the release of the cache when the context ends |
| messages of channel 0 | `vortex_channel_0_frame_received`, the parameters of start and close requests, the order in which close handlers are asked; not: the XML library (any function that finds the name of the root), the mutex held while a close handler runs |
| search paths | adding paths to domains, asking for them, looking for files; not: NULL arguments, the file system (any set of names at any time) |
| tasks and end of the thread pool | handing over, taking, running and dropping tasks, adding and removing threads, closing, ending with or without waiting; not: failing allocations and thread creation, timed events, the automatic resize |
| timed events of the thread pool, with threads | installing, removing and processing; any event may be due at any time (the arithmetic of time is modelled apart, C36); not: failing allocations, the end of the pool; the order of the list is arbitrary |
| memory of wait reply objects | creating, referencing, releasing, waiting, delivering, answering crossing close messages, terminating the channel, the handler of the broken connection; not: failing allocations, processes that fork during the creation of a channel; the numbers of messages are modelled apart (C20) |
| way of a TUNNEL connection | adding hops, choosing the next host, relaying the request, the replies; not: the XML library (dumping and parsing give the same node back), the function that replaces settings, the greetings after the reply, the octets afterwards (C64) |
| record transports (TLS, WebSocket) | the read and write functions of TLS, the pending flag, the reader loop with it; not: OpenSSL and noPoll (taken as documented), preread handlers, connections removed from the reader meanwhile |
| serverName of a connection | options, name requested, handling in start messages, deferred starts, setting the name at both sides; not: XML escapes, broken connections, channels asked for by both sides |
| configuration of a context | getting and setting items, setrlimit, the decision about MIME headers with its caching, refusing channels, the backlog; not: calls without a context, the Windows branch |
| external transports | all of external/vortex_external.c but the greetings, the on-prepare handler and failing allocations; descriptors with their owners |
| wait reply objects used again | sending with an object, dispatching replies, waiting, giving up; not: broken connections, limits of outstanding messages (both in the model of C20) |
| texts of channel 0 messages | the five `vortex_frame_get_*_message` functions, reading errors and the reply to a close; the reader of XML is a specification, axl is not modelled; white space in attributes is kept |
| fault strings of XML-RPC | the copy of the string, the data of the channel, release by the caller and with the channel; not: other memory of replies |
| memory of XML-RPC values | making, adding, sharing, copying, unmarshalling and releasing; not: names of members, doubles, dates, text forms, the slots of calls (C54), threads |
| answers through the pull API | making, queueing, taking and answering events of start and close requests, removal step by step; not: what events refer to, other kinds of events (C41), two removals at the same moment |
| starting a listener | each system call with any answer, descriptors used again, handlers, registration, connection actions, references of listeners; not: address families, actions that replace the listener, the file conf.xml |
| data of connections, channels and contexts | store, store NULL, delete, read, release, with the mutex and nested calls of destroy functions; the axl hash is a list (assumption); not: failing allocations, `vortex_hash_clear` |
| digests | the text and the references taken and released; the digest functions of OpenSSL are any functions; not: failing allocations, numbers that are no method |
| XML-RPC invocations | one channel, any number of threads; contents of messages are numbers; not: connections going away, the wait of the synchronous call |
| XML-RPC replies | one channel, services fixed, handlers any functions; not: replies that cannot be sent, the channel going away before a deferred reply |
| XML-RPC boots | one connection, any number of boots; not: the connection going away, channels that cannot be closed |
| certificates | the checks of `vortex_tls_verify_cert`; OpenSSL only by its answers and by what it copies into the buffer |
| XML-RPC channel pools | creation, ids, kept names, boots, closing, reconnecting; the channels in a pool: C38 and C90; not: the connection being freed |
| XML-RPC structs | making, adding, checking, reading; calls by name, number, types; not: NULL arguments, argument lists shorter than announced |
| pull event references | making, pulling, referencing, releasing, cleanup; counters in one step; not: masks and waits (C41), answers (C110), the unlocked counter of frames (C30) |
| alive check memory | the events, close handler, creation callback and failure step by step; not: when a check fails (C40), the counter of the channel, fork |
| WebSocket connections | setup, request to noPoll, flags of the connection, detection in shared ports; not: noPoll, listeners, the I/O functions (C102) |
| calls that wait for SASL | `vortex_sasl_start_auth_sync`, its handler and the references around it; not: the negotiation (C57) |
| messages of channels that end | references of channel and connection in the sending thread, release of queued messages; not: the window, feeders, other channels (C25, C26, C48) |
| actions on connections | both functions, and results of the actions as any integer; not: the actions (TLS: C58-C62) and user data |
| limit of sockets | the check, and the two callers until it returns; not: what is done with the socket then |
| log | settings, filter, handlers, mutex and release of the context; filters as sets of levels; not: the text and format of messages |
| WebSocket listeners | installation of the check, listeners, shared ports, handshake and check of connections; noPoll as given; not: reads (C102), creation by the client (C122) |
| searches for channels | by profile, by function and counts; the order of the table is that of insertion (libaxl may use another) |
| end of the sending thread | checks, state, mutex and release; one channel that is never stalled; not: the socket |
| memory of feeders | references, pauses, the finished function; not: the content (C39) |
| start of contexts | order and failures of the steps, threads, references; not: the content of the modules without threads |
| choice of SASL functions | the tables of functions and user data, the order in which they are asked; not: GNU SASL, the other arguments |
| objects of TLS | SSL contexts, SSL objects, mutexes and names of files with their references, the descriptor, the failure handler; not: OpenSSL, objects released by the function that made them, the version of TLS asked for |
| code of services (xml-rpc-gen) | reading, escaping and writing of the code of a service and of what it includes; not: axl, the rest of the format, a file that cannot be opened |
| files of the compiler (xml-rpc-gen) | drafts, comparison, question and answers, status; not: errors of the file system, directories |
| dispatcher and client (xml-rpc-gen) | types of values, names in calls, blocks of resources, headers included once, file names; not: conversion of structs and arrays, replies, the C compiler beyond missing types and declarations |
| conversions of structs and arrays (xml-rpc-gen) | `…_marshall`, `…_unmarshall` of every declared type, the checks of members, which strings are not copied; not: the text sent, shared or recursive values, the digits of doubles, `…_copy`, `…_add` |
| call through generated code (xml-rpc-gen) | the function written for each service, the synchronous and asynchronous readers of replies; not: who owns the result, services that return their parameters, calls that fail to be sent |
| close handlers of the Python bindings | set_on_close, remove_on_close, the handle object and the function called by the library; not: threads (handlers run at once), exceptions raised by handlers, a context that finishes, a close that fails |
| references of Python connection objects | constructor, `create_listener`, objects for handlers, `close`, `shutdown`, collection, `vortex_connection_close`; not: `skip_conn_close`, TLS replacing a connection, references of channels, contexts that finish, races inside one method |
| frame received handler of Python channels | `set_frame_received`, storage of handler and data, the function called by the library, tasks of frames, end of the channel; not: serialized channels, destructors of Python objects, handlers of profiles, `get_reply` |
| channel pools of the Python bindings | `channel_pool_new`, `on_created`, `conn.pool ()`, `next_ready`, collection, release of the data; not: `release`, received handlers given with the pool, handlers that fail, several connections |
| arguments of the Lua bindings | `lua_vortex_check_params` and the tests of object types; not: what the methods do with the arguments |
| queues of the Lua bindings | `push`, `pop`, `timedpop`, `items`, collection, references to values; not: waiting, several queues, values left on the stack by other threads |
| handlers written in Lua | results and errors of handlers with and without result, one stack per thread, contexts that finish; not: locks, the channel pool handler, what handlers do |
| handlers written in Python | parsing of results, exceptions, order of release and use; not: unicode and float results, the interpreter lock, how handlers are looked up |
| events of Python programs | new_event, remove_event, the call of the handler and its end, exit; not: delays, identifiers that are used again |
| locks of Lua states | lock, unlock, handlers, pop, yield, wait_events, wait_listeners, channel_pool_new; not: event_fd, the end of the context, functions that wait for the peer with the lock |
| profiles of Python programs | the frame handler and its data, the steps that read them with and without the interpreter lock; not: start and close handlers, several profiles, unregistering |
| SASL negotiations of a client | properties, context, session, tasks of any number of negotiations, outcome; not: closed connections and channels, host names, the second notification after a malformed reply (see `saslSteps`), what gsasl computes |
| references of queues | counter, release, the variables of the callers; not: what the queue stores (Verif/Model/Queue.lean), the lock inside one call |
| profile masks | list, identifiers, checks of any number of threads; not: failed allocations, the release of the connection, what the masks answer |
| pipes made of sockets | the descriptors, the order of connections at the listener; not: socket options, the data of the pipe |
| decimal numbers | sign, digits, separator, the exchange of the separator; not: blanks, exponents, hexadecimal numbers, rounding |
| listeners of the configuration file | the form the DTD demands, the loop, the answers; not: the XML parser, attributes, blanks, the search for the file |
| tests of files | existence, links, directories, regular files, names built from tokens; not: permissions, relative names, changes meanwhile |
| environment variables | names, values, numbers, lack of memory; not: several threads, the Windows flavour, leading blanks of numbers |
| reports of Python exceptions | joining of lines, handler, log, console, shutdown; not: the interpreter, references, lines with NUL |
| names of SASL mechanisms in the bindings | the prefix, the comparisons in order; not: the comparisons of axl, taken from their documentation |
| TLS started by Python programs | objects, connections and their references, outcomes given beforehand; not: the negotiation, several objects, late notifications |

Not modelled: XML parsing (axl) and the DTDs; name resolution, opening of listeners and connections (the
functions that open sockets); the system calls of the I/O wait mechanisms; what the table leaves out of the profiles and of `xml-rpc-gen`; the language bindings; log
and statistics; Windows code. Where one of them calls into what is modelled (for example the start and close messages of
channel 0 after parsing) the model starts from the parsed values.

## 6. Where the code violates the properties

Each line is proved: the named theorem is a concrete run of the model, and a theorem `Cnn_statement_false` derives from it
that the full statement does not hold of the model. The `_partial` theorems say exactly what does hold.

| property | fault | theorem |
|---|---|---|
| C03 | a SEQ frame with ackno 2^32-2 is refused, 2^32-1 is taken as a sentinel | `C03_seq_round_trip_fails` |
| C04 | more than 25 would-blocks inside a header line, or a would-block when the rest of a payload is resumed, close the connection | `C04_drip_feed_closes`, `C04_spurious_wakeup_closes` |
| C05 | the frame builder given a caller's buffer checks the room for the header only | `C05_caller_buffer_overrun` |
| C06 | `MSG 0 1` and end of line: the parser reads on behind the line | `C06_short_line_escapes` |
| C08 | an empty message that is not NUL closes the connection | `C08_empty_message_closes` |
| C09 | a size field that truncates to a negative int overflows the allocation; the window test at header time wraps | `C09_negative_size_overflow`, `C09_header_check_wraps` |
| C10 | near the wrap of sequence numbers a changed window lowers the limit | `C10_statement_false` |
| C11 | a SEQ frame with an unchanged limit closes the connection (window made smaller, or a peer that repeats it); ackno 2^32-2 too | `C11_equal_limit_closes`, `C11_unlucky_ackno_closes` |
| C12 | `send_rpy_more` then `send_rpy` out of turn: the stored first part is overwritten | `C12_part_lost` |
| C18 | the last fragment is not compared with the stored ones; the size limit is not applied with the last fragment | `C18_merges`, `C18_nul_swallowed`, `C18_over_limit` |
| C19 | empty frames share a sequence number with the next one; a reply taken by `wait_reply` stops the others | `C19_empty_frame`, `C19_frame_lost`, `C19_after_wait_reply` |
| C20 | an ANS/NUL answer to a message somebody waits for blocks later ones; the close handler is installed after the connection is checked | `C20_ans_blocks`, `C20_installed_too_late` |
| C21 | with an explicit transfer encoding the MIME type is written in its place | `C21_wrong_encoding` |
| C22 | the MIME parser reads outside messages rebuilt from fragments that have no empty line | `C22_rebuilt_escapes` |
| C23 | removing a header does not remove it, repeated well-known headers are lost, the size omits two octets | `C23_remove_keeps`, `C23_repeated_header_lost`, `C23_size_wrong` |
| C24 | a copy loses the more flag, a copied empty frame is not equal, payloads are compared as C strings | `C24_copy_not_equal`, `C24_equal_ignores_payload` |
| C25 | the reader thread looks at the queue without the mutex: a wake-up is lost; a paused feeder hides other messages | `C25_lost_wakeup`, `C25_forgotten_stays`, `C25_paused_forgets` |
| C26 | a feeder paused without closing the transfer lets the next message in between | `C26_paused_interleaves` |
| C27 | the listener's next channel number overflows | `C27_listener_overflow` |
| C28 | a deferred start refused while the handler runs uses freed memory; closed before open | `C28_deferred_dropped`, `C28_closed_before_open` |
| C29 | reconnecting from a close handler: the new socket is closed, handlers started while connected, order lost | `C29_new_socket_closed`, `C29_started_while_connected`, `C29_out_of_order` |
| C30 | frames count references without a mutex; a channel is looked up and referenced in two steps | `C30_frame_released_twice`, `C30_frame_never_released`, `C30_frame_released_early`, `C30_lookup_then_ref` |
| C33 | several items pushed under one lock wake one waiter | `C33_batch_lost` |
| C35 | a resize exceeds the maximum; overlapping removals end every thread | `C35_over_limit`, `C35_no_threads` |
| C36 | microseconds that add up to exactly 1000000; an event served late runs again at once | `C36_event_early`, `C36_wait_gives_up`, `C36_catches_up` |
| C38 | a channel is marked as busy after the pool is unlocked: given twice, or closed and given; released after deattach stays busy | `C38_given_twice`, `C38_closed_is_given`, `C38_busy_for_ever` |
| C39 | one-octet window with MIME separator: heap overflow; files of 2 to 4 GB close the connection; pause and resume before it is noticed | `C39_one_octet_window`, `C39_large_file`, `C39_resumed_twice` |
| C40 | a refused or closed alive channel ends the check silently; short periods fail early | `C40_refused_never_fails`, `C40_closed_never_fails`, `C40_early_failure` |
| C41 | milliseconds are taken as microseconds; the wait is done once | `C41_short_wait`, `C41_stolen_event` |
| C42 | a frame abandoned leaves the connection open; no lock around the writes; spin on a stale EINTR | `C42_truncated_then_data`, `C42_interleaved`, `C42_spins_when_closed` |
| C43 | see the theorems: waits for ever for a reply, half closed, marked for ever, removed twice, sent after close, broken connection | `C43_waits_for_ever`, `C43_half_closed`, `C43_marked_for_ever`, `C43_refused_then_closed`, `C43_message_to_closed_channel`, `C43_removed_twice`, `C43_sent_after_close` |
| C45 | a header line that arrives octet by octet closes the connection | `C45_slow_header` |
| C46 | with an outstanding limit of one a message in two parts cannot be finished | `C46_limit_one` |
| C47 | a shutdown does not release senders that wait on the limit | `C47_broken_connection` |
| C48 | a channel inserted after its last message was completed makes the sending thread spin | `C48_spins`, `C48_spins_forever` |
| C49 | long `features`/`localize` values: the closing tag is written behind the buffer | `C49_no_profile_overrun`, `C49_filtered_overrun` |
| C49 | values with an apostrophe are not escaped: different configurations give the same greetings | `C49_apostrophe` |
| C50 | greetings above 4058 octets stall: no SEQ frame is sent during the greetings | `C50_long_greeting_stalls` |
| C50 | a listener forgets fragments that cannot be joined and accepts a later greeting | `C50_broken_greeting_forgotten` |
| C51 | base64 and date parameters, and empty structs, are dropped from a call; those behind them move up | `C51_base64_lost`, `C51_member_lost`, `C51_empty_struct_lost` |
| C51 | a string with `]]>` ends its CDATA section: it can add parameters | `C51_string_adds_parameter` |
| C52 | a none value is never sent as the answer | `C52_none_not_answered` |
| C52 | a fault text with `]]>` changes the fault or makes the reply unreadable | `C52_fault_changed` |
| C53 | a service that refuses the resource gets the call; when it defers, a second one gets it too | `C53_refused_resource`, `C53_handed_twice` |
| C54 | an array item set by position is not counted, found or released; one replaced is not released | `C54_array_set_lost`, `C54_array_replace_leaks` |
| C54 | a call with parameters set by position cannot be sent | `C54_call_set_not_sent` |
| C55 | properties of a failed attempt are kept: a later success reports them as proved; a message after completion changes the identity | `C55_stale_authzid`, `C55_stale_authid`, `C55_switch_user` |
| C56 | `status='abort'` takes the length of a NULL reply; messages without a session | `C56_abort_crashes`, `C56_second_start_crashes` |
| C57 | two notifications for a malformed reply; `complete` is believed without the mechanism; starting twice drops the authentication | `C57_notified_twice`, `C57_not_verified`, `C57_dropped` |
| C58 | `SSL_accept` returning 0 (handshake shut down by the peer) counts as success | `C58_accept_zero` |
| C59 | a failed handshake restores the clear text handlers on both sides and leaves the connection open | `C59_listener_falls_back`, `C59_initiator_falls_back` |
| C60 | after a refusal no SEQ frames are sent any more; the synchronous request on a secured connection shuts it down | `C60_no_more_seq`, `C60_sync_kills` |
| C61 | the SASL state survives TLS: starting a channel of the mechanism used before is enough | `C61_carried_over` |
| C63 | only one header line of the answer is skipped; a refusal never calls the handler; connections made with a handler are not known as proxied | `C63_header_left`, `C63_usual_proxy_fails`, `C63_refused_not_reported`, `C63_async_not_marked` |
| C64 | a write given up leaves a hole; a failing write leaves a pointer to a released connection; a read that finds nothing closes both | `C64_hole`, `C64_released_partner`, `C64_nothing_to_read` |
| C65 | a connection registered behind the request to end is never closed or released | `C65_left_behind` |
| C66 | anything handed to the reader behind the request makes it forget the request; one that comes during a change of the mechanism is dropped | `C66_stop_lost`, `C66_swallowed`, `C66_left_behind` |
| C67 | a request during a change of the mechanism is dropped; one behind the request to end is never answered; the callers wait for ever | `C67_swallowed`, `C67_never_answered` |
| C68 | a connection registered during the change is taken for the end of the change | `C68_mixed` |
| C69 | a handler removed while a call waits for a thread: the reference is never released and the connection is never reported again; a call can come after traffic, or with a longer period installed meanwhile | `C69_forgotten`, `C69_late_call` |
| C71 | a call to unlock just after the waiting thread looked at the flag, and a listener that fails to start before it, are lost and the thread waits for ever; with two threads, or one that is about to wait, a released queue is used | `C71_lost`, `C71_failure_lost`, `C71_released_queue` |
| C72 | the address and port given at installation are ignored; a greeting that arrives in pieces, and octets in the middle of a session, are offered to the handlers | `C72_filter_ignored`, `C72_middle` |
| C73 | a connection accepted after the visit, before the listener is closed, stays open | `C73_left_open` |
| C74 | without system limit (or with one of 2^31 or more that becomes negative) only 4096 descriptors are taken; above 2^30 the next size overflows | `C74_unlimited`, `C74_overflow` |
| C75 | a closed listener is counted as ready, so that a ready connection is not read in that round; preread handlers of listeners are not called | `C75_not_served` |
| C76 | `vortex_profiles_is_defined_received` looks at the close handler, which always exists: it answers true for every registered profile | `C76_defined_received`, `C76_statement_false` |
| C77 | registering a registered profile writes to the record after the lock was released, so that one unregistered meanwhile is written after its release; handlers get the data of another registration | `C77_released_used`, `C77_wrong_data`, `C77_old_data` |
| C78 | a first level delivery that begins when the connection is down, the channel gone or the handler cleared does not release the channel; frames kept for ordered delivery are never released when the one before is dropped; a frame with the number of one that is kept replaces it, and its references stay | `C78_channel_kept`, `C78_frame_kept`, `C78_same_number` |
| C79 | a second thread that looked at the flag just before locks a destroyed mutex; a cleanup function that removes itself makes the next one be skipped | `C79_destroyed_mutex`, `C79_skipped` |
| C80 | two threads that look at the counter before either gives its reference back: neither pointer is cleared | `C80_left` |
| C81 | the thread of the close handler pushes into a queue released after the call; NULL with a frame in the queue; a failure before the handler is installed is noticed only at the end of the time | `C81_released`, `C81_null_with_frame`, `C81_late` |
| C82 | if the connection fails before the answer is written, the thread that accepts the close waits for ever: the mark of the failure is taken as the answer and then waited for again | `C82_blocked`, `C82_never_ends` |
| C83 | a message answered with ERR counts as not answered; a number used again counts as answered; every wake-up takes half a second of the time | `C83_error`, `C83_same_number`, `C83_early` |
| C84 | a token left by an earlier change makes a call return at once; a second waiter takes the token meant for the first; a change before the waiter is counted is not notified | `C84_stale`, `C84_taken`, `C84_unnoticed` |
| C85 | an accepted connection that fails after it was found ok, and a listener that is down already, lose the reference of the engine; the role of a released connection is read; a second call returns true although the first fails | `C85_refused`, `C85_down_listener`, `C85_freed`, `C85_freed_accepted`, `C85_told` |
| C86 | a handler that removes itself makes the next one be skipped; a handler taken by the loop is called after its removal | `C86_skipped`, `C86_called_removed`, `C86_twice` |
| C87 | after the peer refused to close a channel, every further call to close it, and to close the connection, never returns | `C87_blocked`, `C87_all_again` |
| C88 | an answer whose text is in the cache is accepted without looking at its type or profile, and refused answers are put there too; an entry of the cache is used after another thread replaced it | `C88_other_profile`, `C88_negative_accepted`, `C88_released` |
| C89 | a refused channel is removed twice by number, so one created by another thread in between is lost; with the connection down the handler is never called | `C89_lost`, `C89_never_told` |
| C90 | a channel given away by its pool keeps the pointer to it and uses it when it is released, after the pool was; giving away a channel that the peer closed blocks; a pool loses a channel with the number of one given away | `C90_released`, `C90_blocked`, `C90_wrong_channel` |
| C91 | setting the timeout back to its default has no effect; contexts share the values through the environment of the process; values are cut to `int`; two threads that read at the same time undo a change for ever | `C91_no_reset`, `C91_other_context`, `C91_too_long`, `C91_race` |
| C92 | a timeout below one second returns a socket still connecting; an old `EBADF` in `errno` makes the wait fail; full seconds of the clock end the wait early; the name cache ignores the transport | `C92_unfinished`, `C92_stale_errno`, `C92_early`, `C92_family` |
| C93 | without a connect timeout (the default), greetings whose payload arrives in two pieces are refused; a fragment followed by a close makes the call spin for ever; a connect timeout below one second refuses greetings that are not there yet; if the own address cannot be read nobody is told and the socket stays open; a call without host is never told | `C93_split`, `C93_spin`, `C93_subsecond`, `C93_unnamed`, `C93_not_started` |
| C94 | a partial header line, frame or greetings fragment, and the count of reads without data, survive a reconnection: the new greetings are refused; a connection that is connected again before the reader noticed the shutdown is watched and read twice, which closes it when a payload arrives in two pieces | `C94_old_line`, `C94_old_frame`, `C94_old_fragment`, `C94_counter`, `C94_twice`, `C94_twice_breaks` |
| C95 | the cache is looked up with the text up to the first zero octet, while the parser gets the whole text: greetings made of known ones, a zero octet and anything else are accepted or not depending on what other peers sent before. Entries are never dropped, so peers can fill the memory | `C95_zero`, `C95_zero_first`, `C95_kept` |
| C96 | the validation of messages of channel 0 is commented out, and `atoi` is called with the attribute as it is: `<close code='200' />`, valid by the DTD, and every start or close request without a number, crash the process. A number that is none counts as 0: it closes the connection. Anything beginning like `<ok` or `<error` is never answered | `C96_close_default`, `C96_crash_iff`, `C96_misread`, `C96_silent` |
| C97 | a path that is searched for the domain "default" is silently not added to any other domain (the wrong domain is checked) | `C97_shadowed` |
| C98 | a thread that leaves the pool while its end waits for it is released twice | `C98_released_twice` |
| C98 | a task handed over while the pool is being ended is put into a released queue | `C98_late_task` |
| C98 | with skip_thread_pool_wait a thread that was asked to leave uses the released pool | `C98_skip_wait` |
| C98 | a thread added after the beacons were pushed makes the end of the pool wait for ever | `C98_late_thread` |
| C98 | two removals of one thread each leave a pool of two without threads, its tasks are never run | `C98_no_thread_left` |
| C99 | a handler is called after the removal of its event was reported | `C99_called_after_removal` |
| C99 | two events have the same identifier: it is the lower half of the address | `C99_same_identifier` |
| C99 | the identifier of an event that ended removes an event installed later | `C99_old_identifier` |
| C99 | the event behind one that is removed while its handler runs is passed over once (not a violation, but not documented) | `C99_passed_over` |
| C100 | a close message that crosses ours is answered with an object that may have been released | `C100_crossing_race` |
| C100 | if the close message cannot be sent the channel keeps the released object, and the next close message of the peer uses it | `C100_send_failed` |
| C100 | a reply after the time out, then a broken connection: the reply is taken for the signal of the handler and leaks, and the handler uses the released queue | `C100_late_handler`, `C100_leak` |
| C101 | a hop that is not accepted is left out silently, and the next host is connected to directly | `C101_bypassed` |
| C101 | hops with an IPv6 address, a service record without port, a profile or an endpoint are documented and accepted, but never connected to | `C101_not_implemented` |
| C101 | a request that names an endpoint and holds nothing else is taken as a session with the proxy itself | `C101_endpoint_taken` |
| C101 | a request to start a TUNNEL channel without content ends the process (`strlen (NULL)`) | `C101_no_content` |
| C101 | the handler given to `vortex_tunnel_new` is never called | `C101_handler` |
| C101 | hops that are not documented are accepted | `C101_undocumented` |
| C102 | if the rest of a frame is in a record of its own which arrives in two pieces, the connection is closed | `C102_piece_closes` |
| C102 | a frame behind the greetings in the same record is not read until something else arrives | `C102_left_behind` |
| C103 | the connection option not to take the host as serverName has no effect | `C103_acquire_ignored` |
| C103 | the serverName of the connection options is not used if the context does not acquire names from hosts | `C103_feature_ignored` |
| C103 | two threads that create channels: the sides report different names | `C103_disagree` |
| C103 | two deferred starts: the name of the connection is replaced | `C103_overwritten` |
| C103 | a deferred start: its handler was told another name than the connection gets | `C103_deferred` |
| C103 | names with a colon are cut, also IPv6 addresses taken from the host: `::1` gives an empty name | `C103_port` |
| C104 | 0 is not accepted as a value, so what was switched on (refusing profiles that were not announced, not waiting for threads) cannot be switched off | `C104_off`, `C104_for_good` |
| C104 | an upper limit of descriptors below the lower one is reported as set, and is not | `C104_hard_lower` |
| C104 | the documented default of the backlog, 5, is 0 | `C104_default` |
| C104 | the first message fixes the MIME setting of a channel: later changes for the profile or the context have no effect | `C104_stale` |
| C105 | the descriptor of a listener over an external transport is closed twice: the second time it may be one of somebody else | `C105_foreign_closed` |
| C105 | connections take no references of their setup object: with two connections, or after the application released its own reference, released memory is used | `C105_shared_setup`, `C105_own_reference` |
| C105 | mutual exclusion is not provided for accepted connections; changing the option during a call lets two threads in, or leaves the mutex locked | `C105_accepted_overlap`, `C105_switched_overlap`, `C105_stuck` |
| C105 | a handler that takes or releases a reference of its setup object waits for itself | `C105_waits_for_itself` |
| C105 | host and port of the setup object are ignored, and the handler for a new connection is never called | `C105_never_reported` |
| C106 | a wait reply object used again after a time out, as documented: the thread may get the reply to the earlier message | `C106_wrong_reply` |
| C106 | or its earlier entry stays at the head of the list of those waiting, and from then on no thread waiting on the channel gets its reply | `C106_blocks`, `C106_blocks_documented` |
| C107 | nothing is escaped: a quote in the serverName ends it and adds attributes; `]]>` in the content of a profile adds elements to the request | `C107_server_name`, `C107_section` |
| C107 | content with a zero octet is cut there although its size is given; `&` in a profile or `<` in the text of an error make a message that cannot be read | `C107_zero`, `C107_uri`, `C107_error_text` |
| C108 | the fault string of a reply is stored with the channel under itself as key: a peer replaces any data of the channel, the library's own too | `C108_overwrites` |
| C108 | released by the caller as documented, it is released again with the channel; a second equal fault releases the first string while it is in use | `C108_double`, `C108_twice` |
| C109 | a struct or array unmarshalled without a function, as documented, is released already when it is returned | `C109_struct_released` |
| C109 | taking a string from a response with base64 content, a struct or an array loses that memory | `C109_string_leak` |
| C109 | a value added to a full struct or array is lost, and the caller is not told | `C109_full_leak` |
| C109 | the count of a struct is its room, not the number of members added: looking at one not yet added uses NULL | `C109_member_null` |
| C110 | removing the pull API drops events of requests unanswered: the peer waits for ever | `C110_lost` |
| C110 | it releases the queue while handlers and waiting calls use it | `C110_released`, `C110_waiting` |
| C110 | it waits for ever if the application takes the last event between its check and its removal | `C110_stuck` |
| C111 | a failure to start a listener is never told to the handlers | `C111_silent` |
| C111 | the host and port told are taken from a variable nothing was stored in | `C111_wrong_address` |
| C111 | a listener refused by a connection action, or not made, is told to be ready | `C111_refused_told`, `C111_closed_twice` |
| C111 | if the connection object cannot be made the socket is closed twice; a socket up to 2 stays open | `C111_closed_twice`, `C111_left_open` |
| C111 | ports are taken modulo 65536 | `C111_other_port` |
| C111 | a refused listener, closed as documented, is released twice; one shut down by its ready handler is used after release; closing a working one reads a null pointer | `C111_released_twice`, `C111_shut_by_handler`, `C111_close_working` |
| C112 | the key of a call that stores NULL is not destroyed though its destroy function was given | `C112_key_leak` |
| C112 | a destroy function called at the release that uses the same object waits for ever, and the object is never freed | `C112_release_stuck` |
| C112 | storing the same pointer again under its key destroys what is then stored (a use the text does not exclude) | `C112_stored_again` |
| C113 | each question for the fingerprint of a peer keeps a reference to its certificate | `C113_peer_leak` |
| C113 | the digest of a NULL string crashes; a negative size is taken as a huge one | `C113_null_crash`, `C113_negative_size` |
| C114 | invocations of two threads, or made before the last one was told: answers cross, one is told nothing, released memory is used | `C114_crossed`, `C114_early`, `C114_failed_other` |
| C114 | a message of the peer is taken as the answer; at any other time it makes the frame handler use released memory | `C114_message_taken`, `C114_message_crash` |
| C114 | `vortex_xml_rpc_invoke` always returns false | `C114_returns_false` |
| C114 | the method call of a refused invocation is not released | `C114_refused_leak` |
| C115 | a channel whose resource is refused is created, and its calls are given to the services | `C115_refused_served` |
| C115 | a call deferred by a service of another resource is given to the next one too; the deferred reply then uses a released call | `C115_deferred_twice` |
| C115 | a start message without content stops the listener | `C115_no_content` |
| C115 | a message that is no method call never gets a reply | `C115_no_reply` |
| C116 | the text of an error of the peer is released before the call returns it; that of a channel not created when the next one is not | `C116_error_text`, `C116_second_text` |
| C116 | the handler gets a closed channel | `C116_closed_channel` |
| C116 | the channel is left open when nothing comes in time, and, with the queue, when the call gives up | `C116_left_open`, `C116_gave_up` |
| C116 | any frame with `<bootrpy />` is accepted, even an ERR | `C116_err_accepted` |
| C116 | the name of the resource is lost when the channel is not created; a call on a connection that is down writes no result | `C116_name_lost`, `C116_unset` |
| C117 | a common name is compared up to its first NUL, and only its first 511 octets | `C117_nul`, `C117_truncated` |
| C117 | without a common name the stack is compared, or read behind the buffer | `C117_no_name`, `C117_no_name_crash` |
| C117 | the reference to the certificate is never released | `C117_kept` |
| C118 | a second call with a handler releases the names of the first pool, which goes on to use them | `C118_second_handler`, `C118_second_handler_later` |
| C118 | two threads get the same id: the first pool is closed under its call | `C118_same_id` |
| C118 | the id -1 that the documentation allows finds nothing | `C118_default` |
| C119 | a struct that is not full crashes checks and access by position, and counts its room | `C119_not_full` |
| C119 | names that are no types, such as `i4`, match every member | `C119_unknown_type` |
| C119 | a parameter of another type read as an int gives a part of an address | `C119_int_of_pointer` |
| C120 | a connection that fails before the event is made: the event has no connection | `C120_no_connection` |
| C120 | the channel of such an event names a connection that may be released | `C120_channel_of_released_connection` |
| C121 | the event of the check runs while the connection is closed and released: its data is used after its release | `C121_tick_of_released` |
| C121 | the failure handler is called with NULL while the close handler runs | `C121_handler_null` |
| C121 | a close while the channel is created: the event is installed afterwards, never removed, and runs on released memory | `C121_event_left` |
| C122 | certificates of wss:// peers are not verified by default, against the documentation | `C122_not_verified` |
| C122 | connect timeouts below one second are taken for one minute | `C122_short_timeout` |
| C122 | Origin or Host configured again: the former value is leaked | `C122_origin_lost` |
| C122 | TLS records of versions other than 3.1 are not found in shared ports | `C122_tls_not_found` |
| C123 | a reply that cannot be parsed is notified twice: the queue of the call is released twice | `C123_malformed` |
| C123 | after a timeout the negotiation goes on: the connection may get authenticated, or be used after its release | `C123_late_success`, `C123_timeout_release` |
| C123 | NULL places for the results are written at a timeout | `C123_no_places` |
| C124 | the sending thread reads the address of the connection and then takes a reference: the connection may be released in between | `C124_race`, `C124_closed_race` |
| C124 | messages in the queue of a channel that is closed are never released | `C124_closed_leak` |
| C125 | after a timeout the automatic TLS action replaces the connection by NULL, which the next action gets | `C125_null` |
| C125 | actions after the automatic TLS action are called twice for the secured connection | `C125_twice` |
| C125 | a connection closed by an action is given to the next | `C125_closed_given` |
| C126 | two new sockets checked at the same time are both refused although one fits | `C126_both_refused` |
| C126 | descriptors that are not checked may be the last: accept fails, takes nothing from the backlog, and is tried again at once for ever | `C126_spin` |
| C127 | a new filter does not replace the old one: levels named before stay hidden | `C127_filter_kept` |
| C127 | colors turned off come back if the environment asks for them | `C127_color_kept` |
| C127 | asking not to use the mutex of the log turns it on; a handler that writes a message then blocks for ever | `C127_mutex_on` |
| C127 | the second handler gets a list of arguments that was used | `C127_arguments` |
| C127 | releasing the context uses the mutex of the log after destroying it | `C127_destroyed` |
| C128 | two threads that start WebSocket listeners install the check twice | `C128_twice` |
| C128 | the handler given to `vortex_websocket_listener_new` is never called, and NULL is returned | `C128_silent` |
| C128 | a connection of noPoll is lost for each refused connection on a shared port | `C128_lost` |
| C129 | the channel found may be released before its finder can take a reference | `C129_gone` |
| C129 | a function that uses the connection blocks for ever, and with it all channels of the connection | `C129_blocked` |
| C130 | a call that passed its checks uses the state of the sending thread after it was released, or NULL | `C130_null` |
| C130 | messages accepted before the end of the context are not written | `C130_lost` |
| C131 | the finished function of a feeder is called twice when the application asks for its status meanwhile | `C131_twice` |
| C131 | it is never called, and the feeder never released, when the status was asked before the feeder was sent, or the pool is stopped | `C131_early`, `C131_stopped` |
| C131 | a call that sends a feeder and answers false may or may not have released it | `C131_owner` |
| C131 | a feeder sent twice keeps a reference of its channel | `C131_leak` |
| C131 | a feeder paused before it was sent keeps the reference of the caller, and its function gets no channel | `C131_paused` |
| C132 | the thread that sends cannot be created: the reader runs for ever, the context is never released, and starting it again uses released memory | `C132_left`, `C132_retry` |
| C132 | the DTD cannot be parsed: mutexes and lists of the modules are never released | `C132_modules` |
| C132 | a thread of the pool cannot be created: it is waited for, and the start answers true | `C132_pool` |
| C132 | a context that was ended is started again: released memory, true, but still ended | `C132_again` |
| C132 | a child that starts the context without vortex_ctx_reinit never releases it | `C132_child` |
| C133 | functions with and without user data set for the same mechanism: either accepts (PLAIN), or the one set last is never asked (CRAM, DIGEST) | `C133_either`, `C133_first` |
| C133 | a function for all mechanisms can never be replaced by one for its mechanism nor removed | `C133_stays` |
| C133 | a function for all mechanisms set again without user data gets the data of the previous one | `C133_stale` |
| C133 | a function set before vortex_sasl_init: NULL is used | `C133_null` |
| C134 | certificate, key or SSL object cannot be used: the SSL context is lost each time (listener and initiator) | `C134_contextLost`, `C134_contextLostInitiator` |
| C134 | a certificate without key: its name is lost | `C134_certificateLost` |
| C134 | the peer is gone when the new connection is made: SSL object, context and mutex are lost, nobody is told | `C134_peerGone` |
| C134 | failures that do not call the failure handler | `C134_unreported`, `C134_unreportedInitiator` |
| C134 | a connection ended between <proceed /> and the handshake: its descriptor is never closed | `C134_descriptorLost` |
| C134 | the initiator cannot make the new connection: the old one is used on with a closed descriptor | `C134_descriptorClosed` |
| C135 | the semicolon behind a closing brace inside the code of a service is lost (`int a[] = {1, 2};`) | `C135_semicolonLost` |
| C135 | a brace in a string or comment ends the code of the service | `C135_braceInString` |
| C135 | an interface file that ends inside the code crashes the compiler | `C135_unclosed` |
| C135 | code in an interface in XML is used as a format | `C135_xmlFormat`, `C135_xmlHalved` |
| C135 | percent signs of code included for the body are doubled; what is included for the header is never written | `C135_includeDoubled`, `C135_headerLost` |
| C135 | a directory given for an included file: the compiler never ends | `C135_directory` |
| C135 | the function of a service without code that returns a struct or array returns nothing | `C135_nothingReturned` |
| C136 | the input ends before an answer: the compiler asks for ever | `C136_asksForever` |
| C136 | a file that is skipped leaves its draft behind | `C136_draftLeft` |
| C136 | of a line of 1024 octets and more the rest is taken for an answer | `C136_longLine` |
| C136 | two services with files of the same name: the user is asked about a file of the same run | `C136_asksAboutItself` |
| C136 | the status is that of success whatever could not be compiled | `C136_status` |
| C137 | of services with the same name only the first is declared in the dispatcher (the header guard has no types): pointers returned by the others are cut to int | `C137_overload_partial`, `C137_undeclared` |
| C137 | a parameter of type base64 is written as a C type that does not exist | `C137_base64` |
| C137 | services without resource cannot be reached on a channel whose resource has services | `C137_unreachable` |
| C137 | two services of the same name with different structs: the first gets the calls of both | `C137_twoStructs` |
| C137 | services `f_int ()` and `f (int)` share their files | `C137_sameFile` |
| C137 | a parameter type that does not exist is accepted and moves the checks of the others | `C137_unknownType` |
| C138 | the strings of an array received are released with it and with the XML-RPC array | `C138_strings` |
| C138 | the doubles of an array arrive as -1 | `C138_doubles` |
| C138 | base64 in structs and arrays, and arrays of arrays, give code that does not compile | `C138_base64` |
| C138 | a struct in a struct with other members is NULL without error; items and bools of another type are -1 | `C138_accepted` |
| C139 | a call with a NULL struct or array is sent as none, fits no service and is never answered | `C139_nullArgument` |
| C139 | a call that fits no service is never answered: the dispatcher returns NULL, which means a deferred reply | `C139_silent` |
| C139 | a result of type base64 arrives as NULL with status OK | `C139_base64` |
| C139 | a true value other than 1 arrives as false in a synchronous call | `C139_bool` |
| C140 | removing a handler that was called already drops references that were dropped and frees twice | `C140_removeCalled` |
| C140 | a handle given to another connection is answered with false and its memory is freed while still installed; the loss of its connection uses it | `C140_otherConnection` |
| C140 | a handler given for a fallen or closed connection is never called, and its references are kept for ever | `C140_late` |
| C141 | `close` of a listener that was shut down or fell drops two references: the connection is freed and used again | `C141_listenerTwice` |
| C141 | `close` of an accepted connection, or of one closed through another object, forgets the reference: never freed | `C141_neverFreed` |
| C141 | a listener that failed to start and is collected without `close` is never freed | `C141_failedListener` |
| C142 | removing the handler while a thread with a frame waits for the lock of the interpreter: the thread takes a reference to NULL and the process crashes | `C142_crash` |
| C143 | the pool keeps a pointer to the Python object that made it, without a reference: once it is collected, `next_ready` through another object of the pool uses freed memory; the normal case for a pool made with `on_created` | `C143_freed` |
| C143 | the data of the pools is released without the lock of the interpreter when a thread of the library frees the connection | `C143_unlocked` |
| C144 | when an optional argument is received, the last argument is not looked at | `C144_lastUnchecked` |
| C144 | a method with optional arguments accepts any number of arguments more | `C144_tooMany` |
| C144 | a table whose metatable has the field `vortex.type` passes for an object (the methods then use the NULL pointer of `lua_touserdata`) | `C144_forged` |
| C144 | an object of another type is refused without an error: the method returns nothing | `C144_silent` |
| C145 | a boolean pushed is lost: `pop` returns the queue itself and `timedpop` its own argument | `C145_booleanLost` |
| C146 | the answer of an event is read at the bottom of the stack of its thread, where earlier results and error messages stay: events that ask to be removed go on for ever, or events are removed at their first call | `C146_stuck`, `C146_dropped` |
| C146 | the message of an error in a certificate handler is used as the file name; a TLS handler that raises `true` accepts | `C146_messageAsFile`, `C146_raisedTrue` |
| C147 | a handler for the close of channels is never called, every close is accepted | `C147_closeIgnored` |
| C147 | the name of a certificate or key and the password of an authentication are read after the Python string was released | `C147_freed` |
| C147 | TLS handlers that return what cannot be read leak and shut the connection down; -1 does not accept an authentication | `C147_effects_partial`, `C147_minusOne` |
| C148 | remove_event and exit keep what belongs to the event, the context included, so the context is never collected | `C148_removedKept`, `C148_exitKept` |
| C148 | a handler that raises leaves its arguments for good; after exit remove_event answers True and new_event keeps its arguments | `C148_raisedKept`, `C148_afterExit` |
| C149 | a handler that waits keeps the lock of the program: a handler and a program that wait for each other never go on | `C149_handlerWaits` |
| C149 | after wait_listeners, in the create handler of a pool and in handlers given by handlers, Lua code runs together with that of another thread | `C149_listeners`, `C149_create`, `C149_nested` |
| C149 | a handler that waited leaves the lock of its state taken: handlers it gave are never called | `C149_leftTaken` |
| C149 | threads of the library release references of Lua without a lock, while Lua code runs | `C149_released` |
| C150 | a profile registered again without frame handler while a frame is being delivered ends the process | `C150_removed` |
| C150 | a handler that only the registry kept is called after its release; a handler is called with the data of the next registration | `C150_freed`, `C150_mixed` |
| C151 | a second start releases the SASL context the first negotiation is using; two starts before the pool runs the first share one context and mix their sessions | `C151_freed`, `C151_mixed` |
| C151 | a start on an authenticated connection ends its authentication; the anonymous token replaces the authentication id; a failure takes away the values of a negotiation already started | `C151_lost`, `C151_lost_told`, `C151_token`, `C151_erased` |
| C152 | the safe release leaves the variable of the caller unless it was the last reference, so that a second one takes the reference of another holder | `C152_null`, `C152_twice` |
| C154 | whoever connects first to the loopback port becomes the other end of the pipe | `C154_stolen` |
| C154 | a descriptor is lost if the connection cannot be made or accepted, or if the first descriptor is a standard one; the call waits if the port cannot be read (compared with `< -1`) | `C154_leak`, `C154_low`, `C154_waits` |
| C155 | the constant text of the caller is written to if its separator is not the one of the locale, also if it is not a number; `-,5` is not read where `,5` is | `C155_changed`, `C155_spoiled`, `C155_sign` |
| C156 | a file that is not valid is answered with -1, which is not `axl_false`; listeners that do not start are not noticed | `C156_invalid`, `C156_deaf` |
| C157 | the test for links is made on what `stat` tells, which follows links, so it fails for every path, also for links | `C157_links` |
| C158 | a variable that is unset is set to the empty text, and true is answered also if that fails; numbers beyond 32 bits wrap | `C158_stays`, `C158_kept`, `C158_wraps` |
| C159 | with a handler and an exception that cannot be formatted, the octet before the text is written; a `%` in a text that is logged is a directive; if the module `traceback` cannot be loaded the exception is lost | `C159_before`, `C159_directive`, `C159_lost` |
| C160 | the last comparison is made with a constant: every text that is no name stands for KERBEROS_V4, and none is refused | `C160_unknown`, `C160_never` |
| C161 | without handler, a call that is refused, times out, or is made for a connection that has TLS gives an object without connection (in the last case with success), and the connection is never released | `C161_twice`, `C161_refused` |

Seen while reading, outside the models: a NUL frame leaves `packet.msg_no` 0 in the sending thread; NUL octets in a header
line received in parts are lost; a failed `queue_data` leaves the message number outstanding; a mask filter that skips the
handling of a start request sends no answer; only the first `<profile>` of a start request is considered; a failing send of
the sending thread is ignored; a SEQ frame for a channel just removed shuts the connection down; XML-RPC
names and base64 texts are not escaped; struct members that were never added are still counted; reading a string
parameter as an integer gives part of a pointer; the synchronous unmarshallers of structs and arrays without a handler
return released memory; `vortex_xml_rpc_invoke` returns false on success.
