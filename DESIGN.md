# Formal model of cisco/libest

## 1. Approach

The C sources under `/repo/src/est` were read as text.  The pure and the
state-machine parts are modelled as total Lean functions over lists, naturals
and integers.  Each definition cites the file and lines it models.  External
libraries (OpenSSL, libcoap, uriparser, the socket layer, the application's
callbacks) appear as parameters: an arbitrary value or an arbitrary function.
Nothing is assumed about them except what is written as a hypothesis in the
theorem that uses it.

File layout in `lean/Verif`:

* `XModel.lean`  - model definitions with source citations.
* `XLemmas.lean` - helper lemmas (only where they are long).
* `XProps.lean`  - specification and property theorems, each with an `example`
  showing that its hypotheses can be met.

Conventions:

* Bytes are `Nat` (value below 256 where it matters), strings are `List Nat`
  without the terminating NUL.
* Undefined behaviour (out-of-bounds read/write, NULL dereference) is a separate
  outcome (`.ub`, or an explicit "highest index written" that is compared with
  the buffer size).
* C `int` arithmetic is modelled with `Int`/`Nat`; where overflow matters this is
  said in the comment of the definition.
* Memory allocation is assumed to succeed, except where noted.
* Logging, performance timers and event callbacks have no effect on results and
  are left out, except where a property is about them.



## 2. Properties: what is modelled and how it is proved

`proved`: the whole statement. `partial`: the statement is false of the code in the way said (then a theorem
whose name ends in `_false` has a concrete witness) or is proved under the hypotheses said. The theorem names
are in `MANIFEST.json`; every theorem's doc comment says what is missing.

| id | property | modules | model and proof | status | remark |
|----|----------|---------|-----------------|--------|--------|
| C01 | Base64 encode/decode round trip | Base64 | `est_base64_encode`, `est_base64_decode`, `est_base64_str_analyze`; OpenSSL's base64 filter described by its text. Round trip by induction on groups of three bytes. | proved |  |
| C02 | Base64 encode never writes outside the caller's buffer | Base64, Cbor/Coap models as callers | Size guard, copy and the final NUL as the index written. Exact condition by arithmetic; witness for the overrun. | partial | False of the code: the final NUL is written behind the destination when the text fills it. The exact condition is proved, and that a one, two or four byte CoAP request reaches it. |
| C03 | CoAP server-keygen payload is exact CBOR | Cbor | `makeCborBytestring`, `writeCborBytestring` and the assembly of the key generation payload; an independent CBOR reader is the specification. Round trip for all lengths. | proved |  |
| C04 | DTLS retransmission timer doubles and is capped | DtlsTimer | The callback as a function of its argument; closed form by induction on the number of calls. | proved |  |
| C05 | CoAP request table stays well formed | Coap, CoapTable | The table as slots; `qsort` is any sorted permutation, `bsearch` any matching index. Invariant over all operation sequences. | proved | For every bsearch and qsort that meet the C standard. |
| C06 | CoAP request table behaves as a map keyed by session (isolation) | CoapTable | Refinement to a bounded map from session key to record. | proved | Refinement to a bounded map from sessions to records. |
| C07 | Distinct CoAP peers never share a request record | Coap | Key text = decimal port ++ address. Injectivity for equal digit counts; witness of a collision. | partial | False of the code: port and address are joined without a separator. Proved for ports with the same number of digits and for equal addresses. |
| C08 | Block1 reassembly yields exactly the client's payload | Coap | Block1 step; the stream of blocks with duplicates refines concatenation, induction over the messages. | proved | Payloads up to the 16384 bytes of the buffer; longer ones are C09. |
| C09 | CoAP request buffer is never overrun | Coap | The same step with the index of the last byte written; exact condition and witness. | partial | False of the code: the bound given to memcpy_s is the size of the data. Proved as long as every message ends inside the buffer. |
| C10 | Wildcard host name matching is confined to one left-most label | Host | `est_client_raw_equal`, `hostmatch`, `cert_hostcheck`; equivalence with a declarative statement about labels. | proved | inet_pton is a parameter. |
| C100 | Several requests on one connection are answered one by one | Wire (WireConnModel, WireConnProps, WireNameProps) | `pass`/`loop`/`connection` model `process_new_connection` around the parts already modelled (`readRequest`, `parseRequest`, `mgRead`, the dispatcher, `discardLen`, `shouldKeepAlive`), with the connection's user name as the state that survives a request. The specification `answers` knows nothing about buffers: it maps a list of requests to the handlers' answers. `pass_ok` shows that a pass over a well-formed request consumes exactly its bytes whatever part of the stream is already in the buffer; `loop_answers` is the induction. Soundness: `pass_cases` and `loop_explained`, with `FrontOk` saying when a refusal is due. `handleOn_name` shows that the response bytes do not depend on the name. `C100_goes_on` says which requests end the connection, `C100_names_of_this_connection` that a name shown to the CA was sent in credentials on this connection. | proved | For streams on which no read reports an error; a read error inside a body makes the code use a partly filled buffer (C14). That the user name is carried over at all is the defect of C55, shown here on the bytes of two requests. |
| C101 | The client accepts only CA certificates that chain to a self-issued one of the same message, and hands out what it accepted | CaVerify (CaVerifyModel, CaVerifyProps) | `verifyResp` and `removeCrls` follow the code with the OpenSSL calls as parameters and the base64 writer of `Base64Model`; the result is the buffer with its noted length, and `copyOut` is the later copy, which is a read behind the buffer if the length is too large. `Passes`, `Rewritten` and `Chain` are the specification; `C101_accepted_iff` is an equivalence. `flowVerify` puts the check into the client operations of C49. | partial | Exact acceptance condition and exactly what is handed out are proved, with OpenSSL's parsing and verification as parameters. False: a message without any certificate is accepted; an internal error of the verification counts as success; taking out CRLs can make the text longer (line breaks), and then zeros are stored with a length behind the buffer. |
| C102 | A client context neither misuses nor loses memory | ClientMem (ClientMemModel, ClientMemLemmas, ClientMemProps) | The heap is the list of live blocks; `alloc` asks an oracle, `free` and `use` of a block that is not live are undefined behaviour (`none`). Every client function is rewritten with only its allocations, releases, uses and the decisions they depend on; decisions of the network, the server and OpenSSL are arguments. Ownership is a separation-style triple `Spec ok G P m Q R`: from the blocks `P` the function ends with the blocks `Q`, everything else untouched, and may lose blocks only if `G`. One lemma per function, composed to `life_spec`; with `G := True` it gives safety, with `G := False` absence of leaks. The property file states its own conditions (`NoKeygen`, `Resumed`, `Complete`: every PKCS7 has content) on the calls. Reading `d.sign->cert` of a signed PKCS7 whose optional content is absent is undefined behaviour in the model. `C102_key_generation_failures_partial` tabulates two key generations for each single failing allocation. | partial | When no PKCS7 comes without content, safety is proved for every pattern of failing allocations without key generation, and with memory available for all calls. Nothing is lost when memory is available, the server resumes sessions and no key generation is asked for. False otherwise, with witnesses: a server that sends a PKCS7 without content makes the client read through NULL; a double release and a use of NULL in key generation when memory is short; the private key and the temporaries of key generation, the references of sessions that are not resumed, and buffers of several error returns are lost. BRSKI calls and SRP are not modelled. |
| C103 | Handling requests neither misuses nor loses the server's memory | ServerMem (ServerMemModel, ServerMemLemmas, ServerMemProps) | Heap and rules of C102. `handler` follows `est_mg_handler` and `est_http_request` down to `est_base64_decode`, each function reduced to its allocations, releases, uses and the decisions they depend on. One `Spec` lemma per function; `serve_spec` composes them over a sequence of requests. `Clean` in the property file lists, in terms of the request and the callbacks only, what must not happen for nothing to be lost. The unbounded leaks are proved for any number of requests and any heap (`repeated`). | partial | Safety is proved for all requests when memory is available, and for the GET requests whichever allocations fail; absence of leaks for all clean requests. False otherwise: before authentication any client makes the server lose memory for ever with a Basic credential or token that is not base64 or a Digest header that names a parameter twice; failing allocations of the body, the credentials, a path segment or an OID entry are undefined behaviour. CoAP requests and the connection's own blocks are not modelled. |
| C104 | The configuration calls, in whatever order, decide who reaches the CA | Setter + Server (ConfigModel, ConfigProps) | `cfgOf` is the reading of the context fields by the request handlers; it joins the state machine of the configuration calls (C30, C31) with the handlers (C19, C20, C23, C54). `lastSet` is the independent specification of a setting: the last value said by an accepted call, or the default. `step_fields` shows for each call which settings it touches; `field_lastSet` is the induction over the sequence. | partial | Proved for all sequences of calls, except: re-enrolment and key generation with a malformed Authorization header (or enhanced certificate authentication) need only the certificate; a refused attempt to configure other attributes silently ends the enforcement of the old ones. |
| C105 | Requests and credentials go only to the verified server named last | Sess (SessModel, SessProps), Tls, Flow | The connections of TlsModel are put under the operations of ClientFlowModel, and the session kept in the context is threaded through. Every handshake is recorded (`Made`); the invariant (`Kept`) is that the peer certificate in the kept session was proved in a recorded full handshake. `C105_only_to_the_named_server` is the induction over the calls. A call is given the list of connections it makes; lists longer than what the call uses only add behaviours. | partial | Requests: proved for all sequences. Credentials: proved as long as no other server is named after a challenge; false otherwise (the mode of authentication survives est_client_set_server, so the new server is given the old server's credentials unasked). |
| C106 | The TLS settings of a server over its life | LifeModel, LifeProps | The context is modelled with the fields that starting, stopping and TLS use; `mg_ctx` is NULL, a service with its `SSL_CTX` settings, or a pointer to released memory, and objects that can no longer be reached are counted. `set_ssl_option` is modelled call by call as far as the calls have an effect on a connection; what OpenSSL does with the settings is a small model of a handshake (version, suite, curve, certificate). The proofs are an induction over the calls with an invariant that relates the context to the history of calls and results; `C106_sessions` then reads a session off the invariant. `C106_orderly_calls_partial` says that a first call out of order is the only way to undefined behaviour or lost objects. Six `_false` theorems are concrete histories. | partial | The sessions that are served are proved to be as configured for every sequence of calls. The rest is false of the code: a second start and a start after a failed one have no trusted certificates and no Diffie-Hellman parameters, est_server_stop leaves a pointer to released memory, a second start without a stop loses the first service, est_proxy_stop does not stop a CoAP proxy, and est_enable_crl has no effect with CoAP. What OpenSSL makes of the settings is a model of its own. |
| C107 | A client that was given credentials presents them, and is enrolled exactly if the server knows them | Cred (CredModel, CredProps), AuthHdr, Challenge, Wire, Flow | `run` is the state machine of the calls that give credentials to the client, `addAuthHdr` the header made from them, `learn` what is kept of a challenge. `intended` is the independent specification of the credentials: it looks at the list of calls only. The client theorems compose this with the wire model of C89: two connections, the challenge on the first, the header on the second, the server's parser, the application (`Checks`: any callback that agrees with a table of passwords and tokens on what a callback is shown), the CA. `Collision` is the event that two different texts have the same hash; the Digest theorem is stated up to it. | partial | Proved for credentials that fit the buffers on both sides and, for Digest, up to a collision of the hash. False otherwise: a call refused for its password has stored the user name; a password of the callback that is too long is replaced by the empty one and a missing token is sent as an empty one; a user name of 255 characters makes the Digest code read past its buffer; with a path segment the URI of a digest is not that of the request. |
| C108 | A request through proxies ends as if it had been put to the server, and only the CA's certificate comes back | ChainModel, ChainProps, Wire, Proxy, Flow | `serveP`/`replyP` put the proxy handlers of ProxyModel between the parser and the writer of the wire model, with the bytes they write. `Verdict` is an answer in terms of what it means; `Says` gives its texts. `Answers` is the specification of a chain, an inductive relation: the server decides, or a proxy stops the request, or forwards it once or (asked for credentials) twice, or cannot connect. `C108_answer` is the induction over it: the bytes the first party writes say the verdict. The client theorems put this under the operations of ClientFlowModel. | proved | For enrolment and re-enrolment over HTTPS; key generation through a proxy is false of the code (C83). Proved for sendable requests, proxies and servers with usable settings and callbacks whose answers fit, and at most two connections from each proxy for a request, which is all the code makes once the next party has asked for credentials. |
| C109 | Enhanced certificate authentication asks the application about the field the calls named, and a checked CSR names the same device | Setter + Server (ConfigModel, EcaProps) | `ecaSaid` is the independent specification of the mode: a fold over the calls with a list of manufacturers. `rel_run` is the induction that relates it to the context (four slots, filled in order). `C109_application_decides_partial` and `C109_keygen_partial` read off a CA call what the application was shown and what the CSR contained; `C109_accepted` is the other direction. `SameDevice` says exactly what is compared: the field of the maker in full, or for a local certificate at least one manufacturer's field, which is all the code does. | partial | Proved for servers that ask for credentials, with the CSR of a manufacturer's device compared in full. For certificates of the local PKI the CSR check is weaker than stated: it passes if any one manufacturer's field is repeated, and passes without comparing anything once an attempt to register a manufacturer has failed. An internal error of OpenSSL counts as a verified certificate. |
| C11 | A subjectAltName of type DNS or IP overrides the common name | Host | `est_client_verifyhost` over arbitrary lists of names; decision logic, out-of-range reads are an outcome. | partial | False of the code when an address entry of the certificate is longer than the host's address: the comparison reads behind it. Proved for all others. |
| C110 | A context is created exactly from usable arguments, holds what it was given, and a refusal leaves nothing behind | InitModel, InitLemmas, InitProps | The two init functions and everything they call are programs over the heap of C102, so every allocation may fail; OpenSSL's PEM reader, PKCS7 writer and subject printer are functions. `Usable`, `GoodLogin`, `Holds` and `HoldsProxy` are the specification, in terms of the arguments only. One `Spec` lemma per function says what it owns before and after and what its result means; `load_spec` is shared by server and proxy. The `_balanced_partial` theorems run init and `est_destroy` one after the other. The client part reuses the model of C102. | partial | Acceptance and contents are proved for all arguments and all patterns of failing allocations, for trust anchors whose subjects have at most 254 characters (with 255 the code writes behind a buffer). Nothing is left behind: proved for refusals by the argument checks and for readable input; false for a server whose trust anchors are refused (store and cacerts answer are lost) and for a cacerts text that cannot be read. Also false: a cacerts text without any certificate is accepted, a proxy is returned without its table when memory is short, and a text above 2000000 characters passes the length check with that length. |
| C111 | CA certificates and CSR attributes through proxies | ChainModel, ChainGetProps, Wire, Proxy, Flow | `News` is an answer to a GET request, `SaysGet` gives its texts. `Distributes` and `Describes` are inductive relations for chains: a server, a proxy with certificates of its own, a proxy that asks on, a proxy that cannot connect. `distributes_tells` and `describes_tells` are the inductions: the bytes the first party writes say the answer. The specification of what arrives is separate from them: `through` applies one verification after the other, `adapted` is one proxy's treatment of attributes and `foldr adapted` the chain's. | proved | Over HTTPS, for requests that can be sent and arrive and texts that fit an answer (not empty, shorter than 2000000 bytes, no line break at the front: C90 shows the client misreads others). |
| C112 | BRSKI works end to end between pledge and registrar | WireBrskiModel, WireBrskiProps, Voucher, Wire, Server, ClientResp | The registrar (`handleB`, `serveB`) is the server of `Wire` with the bytes that the BRSKI handlers write. `brski_reads` shows that the registrar's parser finds the pledge's header and body in the pledge's bytes; `handleB_brski` gives the bytes written for each admission decision and each answer of the application; `exchangeB` joins them. `heard` is what the application was called with. The specification of the pledge's result (`seen`, `reported`, `ended`) is by cases on the admission and the application's answer only; `judged` refers to the voucher check, of which C36 is the specification, and `C112_pinned` states the case of an acceptable voucher without it. | proved | For requests that fit the client's buffer (C61 says what happens to others) and vouchers that fit an answer. What a voucher must contain is C36, what the texts say is C75, the bounds on exchanges are C38. C112_status_header_false records that the registrar's answer to an accepted report is not a complete HTTP response; the pledge accepts it all the same. |
| C113 | The performance timers tell where a session's time went | TimerModel, TimerProps, Coap | A timer is the C structure (context, tag, two clock readings); a tag that was never set is `none`, and printing it is `Log.ub`. `step` is one operation on a session's record (connect, a message with its two clock readings, close) with the calls to the timer functions in the order of `get_coap_req`, `reinit_coap_req`, the handlers and `remove_coap_req`; `request` is the same for `est_http_request`, numbering the points at which the switch and the clock are read. `story` and `httpStory` are the specification: which lines, by recursion over the requests served, without timers. `C113_every_end` runs on top of the CoAP model, so it covers every sequence of messages, not only well-formed sessions. | partial | The lines and their sum are proved for sessions in which each request can be told from the one before (another kind, or a first message that starts over, as a new POST does); false for a GET after a GET of the same kind: the second is timed from the start of the first and its gap is lost (C113_repeated_false). No invalid pointer is printed if timers are not switched on during a session or request; otherwise false. C113_text is for a clock that does not go back. |
| C114 | Every connection the client opens is closed, exactly once | SockModel, SockProps, ClientMemLemmas | The program monad and the rules of C102, with sockets and libcurl handles as resources besides `BIO`s and `SSL` objects: opening may fail, closing or using what is not open is undefined. `connect_spec` says what is open after each outcome of `est_client_connect` (`left`, `Fine`); each caller is composed from it. `Tidy` lists, in terms of the inputs, when nothing is left. Assumptions on OpenSSL: `SSL_free` does not close the descriptor (`BIO_NOCLOSE`), and `SSL_shutdown` writes nothing before the handshake is finished (so since 1.0.2f). The leaks are proved for any number of operations and any heap (`leaks_add`). | partial | Nothing is closed twice or used after closing: proved for everything. Everything is closed: proved for all operations of a client except voucher requests for which random numbers, the time, memory or the registrar's certificate is missing, and for proxies whose handshake upstream does not fail. Otherwise false: a proxy keeps an SSL object for each failed handshake, a pledge the socket and the SSL object for each such voucher request. |
| C115 | The bounded string and memory functions stay inside the sizes they are given | SafeModel, SafeProps | An object is the list of its bytes; the functions of `string.h` that the stubs call are written out, with reading or writing behind the end as an undefined result. `Str b t` says that the object holds the text `t`. Each theorem gives the result by list functions (`take`, `drop`, `takeWhile`, prefix and infix, the non-empty `pieces` between delimiters), by induction over the text. `strtok_s` works on texts and lengths; the callers' loop over it is `tokens`. Source and destination are different objects, so the two copying directions of `strncpy_s` and its overlap test are one loop. | partial | The memory functions, strncpy_s, strcmp_s, strspn_s, strcspn_s, strnlen_s and strstr_s: proved in full. strcpy_s leaves no zero byte when the text is as long as the buffer or longer, and reports success; strcat_s and strncat_s write behind the buffer; strcasecmp_s compares one character more than asked; strisdigit_s does not look at the size; strtok_s returns the last word twice if the length is that of the buffer and nothing with more than 16 delimiters: each shown by an example, with the property proved for the other inputs. Overlapping objects are not modelled. |
| C116 | Handling requests neither misuses nor loses the proxy's memory | ProxyMemModel, ProxyMemLemmas, ProxyMemProps, ClientMem, ServerMem | The programs of C102 (towards the upstream server) and C103 (towards the clients) put together, with the table of client contexts: `pxBlocks` are the blocks a proxy owns (table, path segment, everything in the contexts), and every handler is shown to turn the blocks of one proxy into those of the next (`step_spec`), with what is lost named (`G` true allows losses, `G` false forbids them). `Few` (distinct threads below the number of entries) shows that the table does not grow, so that the GET requests need no memory. `Clean` is the list of conditions in terms of the inputs. An entry is taken out of the table while its request runs and put back afterwards; the order of the table is C06's business. | partial | When no PKCS7 comes without content, safety is proved for all operations when memory is available, and for GET requests whichever allocations fail, if the table was allocated and need not grow. Nothing is lost: proved for clients without certificate, an upstream server that completes handshakes and resumes sessions, clean credentials, and no forwarded key generation. False otherwise: a PKCS7 without content from the upstream server makes the proxy read through NULL; each request of a client with a certificate leaves a reference to it, each failed upstream handshake of an enrolment an SSL object, an unwritable key generation response the private key; several allocations are used unchecked. CoAP requests are not modelled; threads take turns. |
| C117 | The Java methods give Java the certificates the library got, or an exception that says why not | JniModel, JniLemmas, JniProps, JniMoreProps, ClientMem | Each native method is a list of steps over the local variables (`Slot`), run until one raises an exception, followed by the clean-up at the end of the C function; the library calls are the programs of C102 over the heap, so every allocation may fail and using or releasing a dead block is undefined. The virtual machine's functions give blocks: `GetByteArrayElements` and `GetStringUTFChars` allocate, `ReleaseStringUTFChars` frees, `JNI_COMMIT` keeps. `At` says which slots and context are owned before a step; one `tri_*` rule per kind of step carries it along the list together with what has been found out so far, and `End` says what is known when the clean-up starts. The specification is separate: `expected` and `expectedCa` are the calls as a function of Java's arguments, `Sane`, `Success`, `Reported` and `TrustKept` speak about what Java sees. `m` and `m'` are the limit at the check and at the copy, so that a change in between is covered. | partial | Safety and outcome are proved for every pattern of failing allocations, when the PKCS7 has content, the extensions of an old certificate can be copied, the limit is not raised during the call and create_csr gets no null reference; otherwise memory is misused (shown by examples). False: the copies of the byte arrays, private keys among them, stay allocated after every success (JNI_COMMIT does not release them); the text of the exception for certificates that are too long or cannot be converted is read from outside the error table; a digest context is lost when signing cannot start; SRP is silently left out when memory is short; some failures of a CA certificates request throw the enrolment exception. |
| C118 | An application that goes through the CSR attributes with the helpers gets every identifier once and comes to an end | AttrHelpModel, AttrHelpProps, AttrHelpMoreProps, Asn1 | `nextOid` is the loop of the helper over the bytes that are left, with OpenSSL's header reader of C23; `getAttribute` adds the variables of the caller, `sampleLoop` the loop of the sample client for a bounded number of rounds. The specification is the tree of values of C23 with `oidsOf` (the identifiers in order) and `endsOf` (the encoding ends with one). `next_ders` is the induction: one search on the encoding of a list of values finds the first identifier and leaves the encoding of another list of values, because the headers of SEQUENCE and SET are skipped. | partial | Memory safety, absence of errors and the decoding are proved for everything. Each identifier once and an end: proved for attributes whose encoding ends with an identifier; for all others the loop never ends (proved), because the function reports success without progress, contrary to its description. The sample client also gives up when the server has no attributes. |
| C119 | Manual approval in the sample server: signed on the second request | ManualModel, ManualLemmas, ManualProps | 
The table of waiting keys of the sample server is modelled in both builds: the comparison, the
search tree of the C library (as a plain search tree, since balancing changes no answer) and the
linked list. The callbacks are put into the library's handlers of `ServerModel` and
`DispatchModel`, with the table carried from request to request. Both tables are shown to do the
same thing: a lookup turns the presence of its key around. From this the parity of the earlier
requests decides, by induction over the history. The specification counts in the observable
effects (the calls of the callback and their keys). Simplified: allocations succeed, requests do
not overlap.
 | partial | Proved for every history that the model defines. Not so in the code: the approval belongs to the key and not to the client, a failing CA uses it up, a key generation is never served because the key is new each time, an answer of 8192 bytes or more is undefined, and the tree build never releases the entries it removes. Overlapping requests (the table is used outside the lock) are not modelled. |
| C12 | HTTP request framing is stable under how bytes arrive | HttpConn | `get_request_len`, `read_request` over a stream delivered in arbitrary pieces; induction on the stream. | proved |  |
| C120 | Secrets are overwritten before their memory is given back | WipeModel, WipeProps, Safe, Base64 | 
Each function that handles a secret is modelled on the bytes of its buffers, with the bounded
string functions of C115 and the base64 code of C01, and returns a `Trail`: the blocks passed to
`free` with what was in them, its arrays at return, and the blocks nobody points to any more.
The specification is `blank` (everything up to the NUL is zero) and `zeros`; for the key a
server makes it is also stated as non-interference: two keys of one length leave the same bytes.
What was in fresh memory is a parameter. Where the code does not overwrite, there is a witness.
Simplified: only the buffers with secrets are followed; OpenSSL's own structures, the raw
buffers of the HTTP code and the copies a compiler may make are not modelled.
 | partial | Proved for the credentials of the application (within the limits), the Digest code, the enrolment text, the credentials a server has parsed and the key a server makes. Not so in the code: the Basic and token code leave the credentials on the stack, the CSR attributes and BRSKI requests are released with their authentication line, the client releases and loses copies of a key made for it, est_destroy overwrites nothing, and over CoAP and in the proxy a failure at the wrong moment loses the key. Contents inside OpenSSL's structures and the raw HTTP buffers are not modelled. |
| C121 | The CoAP handlers neither misuse nor lose memory | CoapMemModel, CoapMemLemmas, CoapMemProps, ServerMem, ClientMem | Each handler is a program over the heap of `ClientMem`, calling the enrolment and the key generation of `ServerMem`; how far a request gets (`Stage`), the outcomes of decoding and of the callbacks and the failing allocations are arguments. `serve` folds the handlers over requests with `ctx->ca_certs` as state, `life` adds loading and `est_destroy`. Safety and absence of leaks follow from one separation-style triple per function (`handle_spec`, `serve_spec`); incomplete requests are computed directly. The refutations are evaluations with one failing allocation, and inductions for the leaks that grow with every request. Not modelled: proxy mode, endpoint events, failing `memcpy_s`, the session table (C05-C09, C94-C99). | partial | Proved for a server without a callback for the CA certificates: no misuse while memory is available (requests without body: whichever allocations fail), nothing lost by clean requests, and incomplete requests lose nothing whatever fails. Proved false: null pointer writes for the log text and the CBOR array, certificate and key lost, BIOs lost for texts that are no base64, and the callback for the CA certificates, whose buffer est_destroy releases. |
| C122 | The BRSKI calls of the client neither misuse nor lose memory | BrskiMemModel, BrskiMemLemmas, BrskiMemProps, ClientMem | Each function between `est_client_brski_get_voucher` and `verify_voucher`, and the status messages, is a program over the heap of `ClientMem`; the three pointers of BRSKI mode are added to its context and the calls of plain EST are included. What OpenSSL, the registrar and the clock say, and which allocations fail, are arguments. One separation-style triple per function, `life_spec` for the whole life with a parameter `G` for whether blocks may be lost. What `verify_voucher` loses is stated as an equation for every heap and context; the other refutations and the table of single failing allocations are evaluated. `PKCS7_verify` is trusted to accept an octet string of any content type (so does OpenSSL 1.0.2 and 1.1). Left out: arrays on the stack (C36, C73) and the contents of the buffers (C35-C38, C73-C76). | partial | Proved: no misuse whichever allocations fail (vouchers with content of type data, certificates with a serial number, no key generation), nothing foreign released, and nothing lost while no answer is a PKCS7. Proved false: every voucher that is a PKCS7, accepted or refused, loses two blocks; failing random bytes, clock or certificate conversion lose the connection; a voucher of the content type of RFC 8366 is read as a structure of another type; a missing serial number can print the null pointer. |
| C123 | Reading and writing on a connection end in time and lose nothing | IoModel, IoProps, IoClientProps, HttpConnModel | The loops of `wait_until_socket_is_readable`, `mg_read`, `read_request`, `push`, `mg_printf` and `est_io_read_raw` over arbitrary lists of answers of `poll`, `SSL_pending`, `SSL_read`, `SSL_write` and `SSL_peek`; the bytes of the peer are a separate list from which each read takes a piece. A run whose list of answers is used up is `blocked`. The specifications are prefixes of the stream, numbers of polls and sums of milliseconds; `C123_body_refines` and `C123_header_refines` show that the coarser loop of `HttpConnModel`, on which C12-C14 and C51 rest, has every run of the detailed one. Ideal clocks; `total_wait_time` does not wrap; that `SSL_write` may return 0 and that `SSL_read` returns 0 for a cut connection is what the manual pages of OpenSSL before 3.0 say and is trusted. The branches of `push` and `pull` without TLS and with a `FILE` are not modelled (never taken). | partial | Proved: exactness of reading and writing for every fragmentation, the time-out of a single wait (exactly 4t+1 quiet polls on the server), the stop flag, success only without failures, bounds in the number of bytes, and that the loops refine the connection loop of C12-C14 and C51. Proved false: signals delay or shorten the time-out on the server and end the exchange on the client; the time-out counts anew for every byte; a partial TLS record or a write of zero bytes hangs the call; a complete response over a connection that is kept open is thrown away; a cut one counts as complete; a text of exactly 8192 bytes loses its last byte; SSL_peek on a full buffer has no time-out. |
| C124 | Requests handled at the same time do not disturb each other | ThreadModel, ThreadProps, ProxyTableModel | Three small transition systems: the state is the shared data together with the program counter of each thread, a step is one access of one thread to the shared data, and a schedule is a list of thread numbers. The positive statements are inductive invariants over all schedules (`attr_none`, `man_inv`, and the one inside `C124_proxy_known_threads_partial`) or, for calls without interruption, a refinement to `ProxyTable.getCtx`, the model of C40. The refutations are concrete schedules that are evaluated. Simplified: one call of `bsearch`, `qsort` or a list function is one step, memory is sequentially consistent, and setting up a client context does not fail; finer steps only add behaviours, so the refutations stay valid, and the positive statement about known threads concerns steps that write nothing shared. | partial | Proved for all schedules: correct attributes if no callback returns challengePassword itself, own contexts for all threads the proxy already knows, no signature without an earlier waiting request; and for calls without interruption: correct attributes in every order, and the table behaves as in C40. Proved false: a client is not asked for challengePassword or asked twice; a proxy thread gets the context of another one, two new threads take the same entry, and the table is released under a thread; one approval lets two requests through and a waiting request is lost. |
| C125 | Log messages and error events reach the application and change nothing else | LogModel, LogProps | `est_log`, the macros, the backtrace, the two error callbacks with their setters, `ossl_dump_ssl_errors` and the loops of `verify_cacert_resp` as far as they log. An argument of `%s` is memory up to the end of its block, NULL, or a pointer to something else; `render` is undefined where there is no string. The specification `Shows` is an inductive relation between a format, its arguments and the text (`render_iff` shows the two agree). Settings are specified by the last call that set them; quieter levels by a sublist of the log. Simplified: a logger prints what it gets; a pointer is printed as its number; callbacks do not log themselves. | partial | Proved: which messages reach which logger and callback, for every sequence of calls; that a quieter level only leaves out messages; and that the default level is safe. Proved false: ossl_dump_ssl_errors prints a null pointer when there is no error and a text without NUL when there is one; the check of CA certificates prints a pointer to an X509_NAME as a string with level INFO, and with WARN if one does not verify; backtraces are logged without their message, and backtrace_symbols is not checked. |
| C126 | Every connection the sample server accepts is handed to the library once, in order, and closed | QueueModel, QueueLemmas, QueueCount, QueueProps | A transition system: the state is the ring with its counters, the mutex, the program counter of the accepting thread and of each worker, and a record of what was accepted, handed over and closed; a move is a step of one thread, a signal, a spurious wake-up or the return of `start_simple_server`. The invariant `Inv g t` has two ghost numbers, the connections put on and taken off so far, and says that the ring holds exactly `t..g-1`, who holds the mutex, that each connection taken off is counted once, and that not all workers sleep while something is queued. The progress statement `C126_no_deadlock` constructs a schedule from any reachable state, the one for stopping by induction on a rank. The refutations are concrete schedules, the lost wake-up with a proof that no further move helps. Simplified: descriptors are numbers in the order of `accept`; a critical section is cut only where `stop_flag` is read and at the waits; all workers are counted from the start; `accept` and the handling of a request are one move. | partial | Proved for every number of workers and every schedule: nothing is handed over twice or closed without being handed over, nothing is forgotten, the order is kept, the counters stay in range, the mutex excludes, and until the server is told to stop every accepted connection can still be served. Proved for stopping: when the server says it has stopped all workers have returned and what was handed over is closed, and it can come to its end if no worker is about to wait at the broadcast. Proved false: a worker misses the broadcast and the server never ends; accepted connections are left open in three ways; a worker hands over a connection after start_simple_server has returned and the context was released. |
| C127 | The sample certification authority gives out what its policy allows, under a fresh serial number each time | SampleCaModel, SampleCaLemmas, SampleCaProps | `ossl_simple_enroll` with `certify`, `do_body`, `copy_extensions` and the functions for the serial file and the index, as a function of the configuration, the request, the three files under their three names each, and an environment that says for every file operation whether it works, fails, is noticed to fail, or the process is killed. Hexadecimal numbers are texts, with a round trip `readSerial (serialText n) = some n`. The policy is specified by the entries each line lets through (`policySubject_iff`), the extensions by the first or last of each kind, fresh numbers by invariants over runs that say the serial file is above, or the index lists, everything given out. `InOrder` says the files can be used; it is kept by every failure that is noticed and undone. Simplified: OpenSSL makes and signs a certificate or does not; dates, `msie_hack`, line breaks in long serial numbers, negative numbers and multi-valued RDNs are left out; the hash of a string is a parameter with hash of the empty string 0. | partial | content, kinds of strings, extensions, fresh serial numbers (if either file is written whole), unique subjects (if the index is written whole), progress and survival of noticed failures are proved; refuted: repeated serial numbers after unnoticed short writes, comparison with NULL after an empty subject, overrun by a long serial number, no serial file after a failed rename or a kill |
| C128 | What the sample registrar does with BRSKI messages | SrvBrskiModel, SrvBrskiLemmas, SrvBrskiProps | The three callbacks over the tokens of `Verif.Jsmn` (the sample server compiles the same tokeniser), `dump` as a recursion over token numbers that reports a read behind the array, `sprintf` into arrays of given sizes, and the building and signing of the voucher with the signing function, the content of `brski_ca_certs` and the success of each `calloc` as parameters. Three kinds of undefined behaviour are outcomes of their own. The specification is in terms of JSON documents and their members, or of the first token with a name and the one behind it; the client's side of the round trip is `Verif.Voucher.parseVoucher` (C36) and the client's messages are those of C75. `dump` is shown safe by an invariant on token numbers and complete by induction over the JSON grammar. Simplified: what `printf` prints is left out, not what it reads; `PKCS7_sign` and `i2d_PKCS7_bio` are one partial function; `CMS_SIGNING` and `BASE64_ENCODE_VOUCHERS` are off, as in the default build. | partial | Proved: the decision on every status message with fewer than 100 tokens, the fate of the client's own messages, the voucher for every proper request and its acceptance by the client if the server's certificates end in a NUL, that nothing is handed out unsigned, and that blocks are neither lost nor freed twice. Refuted: the certificates have no NUL, so every proper request reads behind the block; status, reason, nonce and registrar certificate overrun fixed arrays; the client's longest reason is one byte too long; tokens behind the array are read; a NULL peer certificate or body is used; without a MASA key no request succeeds; an object as nonce puts another serial number into the signed voucher. |
| C129 | Who the sample server lets in | SrvAuthModel, SrvAuthLemmas, SrvAuthProps | The options of `main` as a list, the calls of libest they lead to (run by `Verif.Setter.step`, C71), `process_http_auth` as a function of the parsed header with NULL accesses as outcomes of their own, and the small callbacks. The header is that of `Verif.AuthHdr` (C33, C34); exact conditions on the bytes of the header come from inverting the parser, those on Digest from an invariant that its fields are short and free of NUL. Whom the server lets in is `Server.enrollAuth` (C19) with the configuration `Config.cfgOf` makes of the options; the statements from client to server instantiate C107 with this callback, which is shown to be a check against one user (for C107 the demand on the application's check was weakened to one mode and 32-character responses). MD5 is any function with 16 bytes. Simplified: the options for manufacturers are not given; the path segment is not printed; texts in variables are kept without their NUL characters. | partial | Proved: what the options lead to, exactly which Basic, Bearer and Digest headers pass, that enrolment needs such a header (or a verified certificate for 127.0.0.1 with enhanced certificate authentication), and the outcome for a client of this library in all three schemes. Refuted: a Digest header without response reads through NULL; any nonce is accepted; a response may go on after 32 characters; with enhanced certificate authentication a client without certificate passes by sending the certificate's name and the fixed password; a token over 512 characters is cut; the secret token is printed as the received one; a long subject writes behind an array, an empty one is copied from NULL; the CSR attributes of the environment have no NUL. |
| C13 | HTTP connection buffer bookkeeping is never out of range | HttpConn | Loop of `process_new_connection` with `int` arithmetic; invariant over the requests of a connection. | partial | False of the code: int64 overflow when Content-Length is INT64_MAX, and a failed body read leaves the rest of the body to be parsed as a new request. Proved: buffer bounds always, and exact partition of the stream as long as no read fails. |
| C130 | What the sample client does with a command line | SampleCliModel, SampleCliSpec, SampleCliLemmas, SampleCliSteps, SampleCliSafe, SampleCliProps | The functions of `estclient.c` from `worker_thread` down are programs in a free monad: a call of libest, OpenSSL, `malloc`, `sleep`, `time` or a write of a file is a question, and the answer chooses how the program goes on; undefined behaviour, `exit` and a loop that does not end are ends of their own. `Can p t e` is the relation between a program, the calls and answers of a run, and its end. The specification (`SampleCliSpec`) speaks of the calls and answers alone: the list `SetUp` of set-up calls, `Talked` and `WaitsFor` for the retries, `FileOk` for files, `LastOp`, `Trouble` and `Success` for reports. The proofs use a weakest-precondition style predicate `Safe` over the calls made so far, and the refutations evaluate `play`, which runs a program on a list of answers. Simplified: threads share nothing but the command line, so one thread is modelled; the loop over the attributes has fuel; the content of the CSR is not modelled (C118 has the attributes). The bug of `-g -e` is stated with a hypothesis on the answers, `Library`, which says what `est_client.c` 4013, 3162, 3505 and 3654 do. | partial | Proved: set-up, one context per round, requests only as asked for, the exact talk with the server including the wait, what is in each file and when names differ, that a report is true and that silence means success of the last operation, the freeing of a CSR from a file, the callbacks, and the rounds of a thread. Refuted: a retry date more than two minutes away, or none, leads to a second request at once; a failed copy stores uninitialized memory, also as a private key and without a report; failures of earlier operations are not reported; -z and --common-name are ignored with -a; after CA certificates were copied the library refuses every enrolment, so -g -e cannot work; a long directory name makes all files one; a request made by the client is never freed; an empty token gives success and a null pointer. |
| C131 | The sample client does what its command line says | SampleArgsModel, SampleArgsSpec, SampleArgsLemmas, SampleArgsProps, SampleArgsMore | Model: `main` of the sample client
(`example/client/estclient.c` 1095-1571) from the options that `getopt_long` has taken apart to the settings of the threads:
the arrays with `strncpy` as they are (a string that fills its array has no end, and reading it is undefined), every
`strncmp` test of the long options in its order, the checks, the files read, and the key made by
`generate_private_RSA_key` with its password loop. Spec: what a command line means, by the last value of each option
(`lastShort`, `lastLong`, `Meant`, `Nonsense`). Proof: each variable after the loop over the options is a function of the
last option of its kind (one lemma `last_rule` by induction, one instance per variable); the rest is case analysis.
`C131_requests` joins this with C130: from the command line to the requests of a thread. Not modelled: `getopt_long`
itself, what is printed, and that an undefined read happens only if the steps before it succeed. | partial | That each setting is that of the last option of its kind, that nonsense is refused and the rest accepted, the limits, the key and the way from options to requests: proved in full. False, with the part that holds proved beside it: a trust anchor whose file name begins with `no` is not used and the client runs without one; re-enrolment with a CSR is refused only if the name of the file begins with an odd byte; SOCKS4A cannot be chosen; strings as long as their array are read behind its end; key generation by the server without a key of one's own fails; an empty password makes the program loop; without OpenSSL's old thread support `-t` does nothing. What is printed and getopt_long itself (that it takes the command line apart into options) are not modelled. |
| C132 | Subject names are read as they are written | SubjectModel, SubjectSpec, SubjectLemmas, SubjectProps | Model: `parse_name` of the sample certification
authority (`example/server/ossl_srv.c` 1180-1295): the two inner loops with their escapes, the buffer of `strlen + 1` bytes and
the three arrays of `buflen / 2 + 1` places with a check on every write, the strings read back from the buffer through the
stored pointers, the entries added one by one, and the memory. Spec: an inductive grammar (`Esc`, `Body`, `Written`), the
elements kept, their grouping into relative names, and a writer. Proof: the loops never leave the blocks (bounds on what is
written by what is left of the text), a result comes only from a text of the grammar, and a text of the grammar gives its
elements; `OBJ_txt2nid` and OpenSSL's decisions on values are arbitrary functions. | partial | Reading, refusing, uniqueness and round trip: proved in full. False: an element joined with + to one that is left out gets into the relative name before that (proved to be right otherwise); a last element without a value makes the whole name refused; the block of flags is used without a check that there is memory for it (safe otherwise) and is never given back (the other three are, once each). How OpenSSL stores the name is modelled by appending. |
| C133 | The command line is taken apart as it is written | GetOptModel, GetOptSpec, GetOptProps | `getopt_internal` and `getopt_long` of `windows_util/getopt_long.c` with the state kept
between calls (`optind`, `place`, `optarg`), each read of `argv[i]` checked, and the loop of the sample client's `main` around
them with its own letters and names; reading behind `argv[argc]` is a distinct outcome and so is a loop that does not end. Spec: an
inductive relation `Reads` between the words and the events, one rule per way of writing. Proof: induction over the relation for
the reading, a measure of what is left of the words for the end of the loop, and cases on clear words for the converse; the
refutations are computed. The texts printed to stderr are not modelled; on other systems than Windows the C library's function is used instead. | partial | Proved in full: the usual ways of writing are understood, with one meaning; no read outside of the words and an end of the loop for every command line; the sample client's threads find what the words say. That nothing else is understood is false (an abbreviation of several names is the first of them, an empty name is the first of all, an argument for an option without one is ignored, a minus sign among letters ends the options silently, an optional argument is taken from the next word); partial: every line of clear words is written in a usual way or has a reported mistake. --keypass_stdin is declared with an argument although its usage has none. |
| C134 | Dates in Retry-After mean what they say | DateModel, DateSpec, DateProps | Model: `parsedate` with `checkday`, `checkmonth`, `checktz`, `skip_over_white` and `my_timegm`
(`src/est/est_client_http.c` 69-605), `sscanf` with its signs and white space, the pointer as the byte before it and the text from it on,
and the date branch of `est_io_parse_http_retry_after_resp` (1327-1399); moving the pointer behind the end is a distinct outcome. Spec: the
calendar by counting the days of years and months, the three forms of RFC 2616, 3.3.1 as writers, and texts whose colons have two
digits on both sides. Proof: `my_timegm` against the counting by induction over the years, one lemma per part of a date for the forms, an
invariant on the place of the pointer for the reads, one on the sizes of the numbers for the 32 bits, and induction over the headers for the
caller; the refutations are computed. The code is compiled only with `RETRY_AFTER_DELAY_TIME_SUPPORT`; `long` is taken to have 64 bits. | partial | Proved in full: the calendar; the preferred form and the form of asctime for every date (up to 2037 as the library is compiled, because SIZEOF_TIME_T is defined nowhere); times reported fit into 32 bits. The form of RFC 850 holds from 1971 to 2070 (1970 is read as 2070); offsets hold but for one second in 2^32 that is taken for an error of my_timegm. False: a time without two digits in each place moves the pointer behind the end of the text (safe if each colon has two digits on both sides); days that do not exist, day zero, negative minutes, wrong days of the week and text behind the sixth part are accepted; zone letters have the wrong sign; the caller stores the date but reports an invalid value, and with or without dates the result and the delay are the same. The code is compiled only with RETRY_AFTER_DELAY_TIME_SUPPORT, and then uses names that are not declared there. |
| C135 | Whatever an application turns on, the client's TLS authenticates the server | CliTlsModel, CliTlsSpec, CliTlsProps | Model: `est_client_init_ssl_ctx`, `est_client_enable_srp`, `est_client_set_brski_mode`, the part of
`est_client_init` that calls the first, and the texts of ciphers; what OpenSSL accepts is a parameter, and so is whether a refused text leaves
the old ciphers in force. Spec: a text of ciphers as words between colons, a suite's way of authentication read from its name (RFC 5054 and
OpenSSL's names), what the TLS rules allow (an offered suite; a certificate exactly for suites that have one; a user and a password for SRP).
Proof: an invariant of the context over any sequence of calls, put together with the model of the handshake and of the connection of C76 and with the
host name of C36. That a failed call changes nothing is false for failures inside of OpenSSL; the rest is `_partial`. That the rules for suites are
kept is OpenSSL's part and assumed (`Rules`). | partial | Proved except that a failed call changes nothing, which is false: SRP is turned on and the ciphers are replaced before the user and the password are accepted. A call with wrong parameters does change nothing. That BRSKI mode turns verification off, as its comment says, is false as well (in the safe direction). OpenSSL's keeping to the rules for suites is assumed. |
| C136 | A CoAP server that was started listens, and what it takes it gives back | CoapStartModel, CoapStartSpec, CoapStartProps | Model: `est_server_coap_get_context` with its loop over the addresses, the setup given to libcoap,
`est_server_coap_init_start`, the resources, a request (`est_server_coap_handle_request`), stop and the end of the context; the books count contexts
and lists and note sockets opened and closed. What libcoap and the resolver answer is a parameter; that libcoap closes the sockets of a context it
releases, and chooses a handler by URI and method, is assumed. Proof: induction over the addresses for the endpoints and the books, induction over the calls for
the balance. False, with witnesses: success without an endpoint (another family of address, no DTLS), two starts in a row, a request with another
descriptor than the server's own, a failed start that leaves the port. | partial | Proved for internet addresses that fit and a libcoap with DTLS, and for histories in which a server is started only when none runs and requests come with the server's own socket; otherwise false, with witnesses: success without an endpoint, a lost context, a lost socket. A failed start leaves the port set. |
| C137 | The samples' utilities read files as they are and give back usable keys | UtilModel, UtilSpec, UtilProps | Model: `read_binary_file`, `write_binary_file`, the two generators of keys with their loop over the rounds of asking for a passphrase,
`load_private_key` and `read_private_key`; the failures of the system are parameters, an `int` has 32 bits, the sum that overflows is a distinct outcome, and
what is allocated is counted. Proof: by cases for the files, with writing and reading as a round trip; induction over the rounds for the keys. False, with witnesses: empty
files, files of 2 GB less one byte and of more than 4 GB, a write cut short, the group and the key of the EC generator, a generator that fails under a
passphrase (endless), a missing key file (a BIO is left). | partial | Reading is right for files of 1 to 2^31-2 bytes; empty files, one size below 2 GB and files above 4 GB refute it. RSA keys: proved. EC keys: usable, but the group (and after an error the key) is left. The loop for a passphrase need not end if generating fails. |
| C138 | Callbacks and application data belong to the context they were given for | HookModel, HookSpec, HookProps | Model: the seven setters of callbacks, the setter and the getter of the application's data, the error callback with the level of logging, and
the tests in front of the calls, over any number of contexts; addresses are numbers. What the callbacks are told is C79's matter (`EventModel`). Spec: the last registration in the history that concerns the
event and the context, by `filterMap` and `getLast?`. Proof: one law per field for a step, lifted to histories by induction; the separation of contexts by filtering the history. | proved | Proved for all histories. The error callback is one for the whole program, not one per context, and level 0 of the logger silences it. Backtraces are taken to be off. |
| C139 | The sample proxy does what its command line says and lets in whom it should | PxSampleModel, PxSampleSpec, PxSampleProps | Model: `main` of the sample proxy from what `getopt_long` returns to the loop that accepts connections, as a list of steps (a call that has to succeed, a call whose
answer is ignored, a test, a text that is read) made from the variables; the arrays with whether they have a NUL, so that a missing one is a distinct outcome; the three callbacks. The answers of libest, OpenSSL and the
files are parameters. Spec: the last argument given for a letter or a name, by `filterMap` and `getLast?`. Proof: one law per variable for a round of the loop, lifted by induction over the options; the run of the steps by induction over the list. The name of the manufacturer,
the password and the path segment are measured by libest within bounds (`C139_password` for the password). Other words than options, and `-h` with one, are not modelled. | partial | Proved: what is read before serving, which calls are made, who is let in. False, with witnesses: the refusal of the upstream server (for example without a port) is not looked at; arguments as long as their arrays are read beyond them; -b is not accepted; --enhcd_cert_truststore is forgotten; Digest works for one realm only; a Digest header without a response is compared through a null pointer; an empty upstream token is called a success. |
| C14 | The request body reader never returns more than Content-Length bytes | HttpConn | `mg_read`, `pull` with arbitrary delivery; invariant over reads. | proved |  |
| C140 | The CSR check and the user name of enhanced certificate authentication see the whole subject field | SubjFieldModel, SubjFieldSpec, SubjFieldProps | A subject name is a list of identifiers and byte values; the look-up, the comparison through strnlen_s and strcmp_s (the functions of SafeModel) and the header are modelled over bytes, with reads out of bounds as a separate outcome. C140_texts shows that the decision is the one of ServerModel.csrCheck over the texts before the first zero byte, so that C109 speaks about these bytes. The equivalences hold for ordinary values (stated in SubjFieldSpec.Plain); each of the four restrictions is shown to be needed by a family of counterexamples. Not modelled: failure of strndup; that OpenSSL keeps a zero byte behind each value is assumed. | partial | Proved: for values without zero bytes, not empty and of at most 256 bytes the check passes exactly for equal first values (for certificates of the local PKI if all manufacturers use one field), the user name is the value, nothing is read out of bounds, and the check over bytes is the one over texts of C109. False: bytes behind a zero byte or behind the 256th are not compared; all names written as BMPString count as the empty name; a second value of the field in the CSR is not looked at. |
| C141 | Requests and keys are read from the bytes the application names | ReaderModel, ReaderSpec, ReaderProps | The two helper functions over the bytes of the application's object, with reads behind it as a separate outcome and a count of memory BIOs; the decoders of OpenSSL are arbitrary functions of the bytes that the BIO covers. Exact characterisation for honest lengths, round trip through any encoder the decoder inverts, balance of BIOs for all arguments, counterexamples for negative lengths. Not modelled: log messages; that the decoders look at all bytes they are given is assumed, so an overlong length counts as undefined. | partial | Proved for lengths from 0 to the size of the object. False for negative lengths, which pass the check and make OpenSSL look for a zero byte: the limit of 8192 bytes does not hold, binary requests are cut off, and without a zero byte the object is read behind its end. |
| C15 | URL decoding inverts percent-encoding | Url | `url_decode` on arrays; round trip, bounds. | proved |  |
| C16 | Request paths are normalised | Url | `remove_double_dots_and_double_slashes`; induction, idempotence. | proved |  |
| C17 | Only the exact well-known EST paths reach a handler | EstUri | `est_parse_uri` without uriparser and `est_parse_operation`; decision logic over all strings. | proved |  |
| C18 | Keep-alive decision | HttpHdr | `should_keep_alive`, `get_header`, `mg_strcasecmp`; decision logic. | proved |  |
| C19 | No enrolment without authentication | Server (AuthProps) | `est_enroll_auth` and callees over arbitrary results of OpenSSL and the application; every authorised outcome has one of the listed pieces of evidence. | partial | Authorised only with evidence: proved. HTTP authentication always enforced: false of the code (malformed header on re-enrol or key generation); proved for the rest. |
| C20 | The CA is reached only by fully checked CSRs | Server (EnrollProps) | `est_handle_simple_enroll` as a trace; every CA event is preceded by all checks. | proved | The strength of the proof-of-possession check is C22, of the attribute check C23. |
| C21 | A certificate response is sent exactly when the CA produced a certificate | Server (EnrollProps) | The same trace with arbitrary write results; both directions. | proved |  |
| C22 | Proof of possession accepts only the connection's own TLS unique id | Server (EnrollProps) | `est_tls_uid_auth` on attribute shapes; decision logic, witnesses. | partial | False of the code: only a prefix is compared, and short or malformed attributes are read out of bounds. Exact for attributes of equal length. |
| C23 | Enforced CSR attributes must all be present | Asn1, Server | Walk over the DER of the CSR and the attribute list byte by byte (`ASN1_get_object` modelled); specification is a tree of values with `der`; mutual induction over the tree. | partial | Proved for DER encoded attributes up to 1024 bytes and DER encoded CSRs whose OID texts are distinct in 127 characters. False for longer OIDs (confused), for CSRs with an indefinite length inside a definite one (reads behind the CSR) and for attribute lists of more than 1013 bytes extended by challengePassword (no CSR passes). |
| C24 | Server error, HTTP status and client error agree | ClientResp, Server | Error table of the server, status line, status table of the client; composition for every error. | proved | Operations other than key generation, whose response has its own parser. |
| C25 | Retry-After survives the trip from server to client | ClientResp | Header text written by the server, parsed by the client; round trip through decimal text. | proved | At most 16 headers, the limit of the client's parser. |
| C26 | Client HTTP authentication is retried at most once and only after a challenge | ClientFlow | All enrolment operations against an arbitrary server; at most two requests, reason of the second; histories by induction. | partial | The bound of two requests and the reason for the second are proved for all five enrolment operations; over any history credentials need the Basic hint or a challenge. That the challenge must have come in the same operation is refuted: a 401 to a cacerts (or csrattrs, or earlier CSR enrolment) request makes the next enrolment volunteer credentials. |
| C27 | Authentication state does not leak into the next operation | ClientFlow | The client context over histories of calls; invariant and witnesses. | partial | Holds for est_client_enroll, server_keygen_enroll and provision_cert; refuted with runs for reenroll, enroll_csr and server_keygen_enroll_csr. The consequence (no second attempt) is proved. |
| C28 | The client accepts a response body only if it is complete and typed | ClientResp | `est_io_get_response_internal`; accepted exactly if complete, typed and within limits. | partial | False of the code with more than 16 headers: the remaining headers count as body. Proved up to 16 headers. |
| C29 | Enrolled certificate and server-generated key are handed out exactly once | ClientFlow | Client context as state machine; invariant over calls, end to end with the response text. | partial | Copy once, no other call changes it, failed enrolments keep it, end to end from the server's text. Refuted in two corners: re-enrolment whose extensions cannot be added reports success with no certificate; a failed key/certificate check leaves both stored. |
| C30 | Configuration values always stay in their documented range | Setter | Every setter as an operation on a record; range invariant over all sequences. | partial | Ranges over all sequences and the outright behaviour of each setter are proved, also that a rejected call changes nothing, except for est_server_set_dtls_session_max when the new table cannot be allocated, which is refuted with a witness. |
| C31 | Rejected reconfiguration leaves the context unchanged | Setter | The same; a rejected call is the identity, or a witness that it is not. | partial | Proved for Enhanced Certificate Authentication, est_proxy_set_server and the small setters; refuted for est_server_init_csrattrs (old attributes lost), est_client_set_server (server replaced, segment refused), est_client_set_auth and est_client_set_proxy, each with the part that does hold. |
| C32 | Manufacturer list keeps every registration it acknowledges | Setter | The manufacturer array; outright description over reachable states. | partial | Outright description of every outcome over all reachable states; refuted for a full list, where success is returned without registration. |
| C33 | HTTP Basic credentials survive client encoding and server parsing | AuthHdr | Client header, server parser; round trip (uses C01). | partial | False of the code for the empty user name, which the server refuses. Proved for every other user name and password that fit. |
| C34 | Digest authentication agrees on both sides | AuthHdr | Both digest computations over an arbitrary hash; equality and converse up to an explicit collision. | proved | For field values without quote and backslash and headers shorter than 384 characters; longer ones are C60. MD5 is a parameter; the converse names the collision explicitly. |
| C35 | JSON tokens stay inside the voucher text and the token array | Jsmn | The whole tokeniser; invariant over the parse loop. | proved | Every run on every text and every array size; the fault outcome of the model (access outside the token array) is shown unreachable, tokens lie inside the text, in order and properly nested. |
| C36 | A voucher is accepted only for this device and this request | Voucher, Jsmn | Token scan and checks of the voucher for every text; exact for one-level JSON objects via C72. | partial | For every voucher text the parser accepts only with a serial number and pinned certificate found by the client's scan (C36_accepted_any); for every one-level JSON voucher with at most 100 tokens in which no member value equals a member name, acceptance is exactly serial = client's serial, nonce (if present) = sent nonce, pinned certificate present and verifiable. False without those hypotheses: values and nested members are taken for names, a shorter client serial is read past its end, more than 100 tokens read past the token array, a pinned certificate of 8192 characters writes one byte past the stack buffer (five _false theorems). |
| C37 | Server certificate verification can be overridden only in three cases | Tls | `cert_verify_cb` for every sequence of callbacks OpenSSL may make. | proved | All notes of OpenSSL and all application callbacks. OpenSSL's own chain building is a parameter (the list of calls of the callback). C37_server_partial is the extra statement about the store's callback used by servers. |
| C38 | The BRSKI pledge limits a registrar's delay | Voucher | `est_client_brski_get_voucher` against every registrar; bounded trace. | proved | All registrars and client states. Transport, TLS, verify functions are parameters. |
| C39 | Proxy forwards upstream results faithfully | Proxy | `est_proxy_handle_simple_enroll`/`server_keygen` with the client's code underneath, against an arbitrary upstream server. | proved | The certificate operations over HTTP. Writes to the client that fail half way are covered by C39_only_upstream_certificate. TLS and the upstream server are parameters. |
| C40 | Each proxy thread keeps its own upstream context | ProxyTable | Table with `qsort`, `bsearch`, growth; refinement to a directory over all call sequences. | partial | Proved for any sequence of calls on one proxy context: the table is a directory from threads to contexts, growing keeps every entry, cleanup destroys exactly the contexts made. False with two live proxy contexts (the capacity is a global); unsynchronised concurrent calls are not modelled. |
| C41 | The proxy forwards a request under the path segment of that request | Proxy | Path segment stored in the per-thread context; decision logic and a witness run. | partial | Proved for proxies with a segment of their own and as long as no request has one. False otherwise: the segment of an earlier request handled by the same thread is used for a request without one. |
| C42 | Server keygen multipart response is understood by the client | Multipart | The multipart parser as a state machine fed with the server's text; round trip. | partial | False of the code for key texts below 256 characters (P-256 keys) and for boundaries beginning with a hyphen. Proved for all others. |
| C43 | Client replaces any stale proof of possession | ClientFlow | Attribute list edit of the client; list equality for all lists. | proved | For both attempts and all operations that edit a CSR; the DER handling of the attributes is OpenSSL's and is abstracted to the list of attributes. |
| C44 | CoAP option checks | Coap | `est_coap_check_option`; decision logic. | proved |  |
| C45 | Expected response content type belongs to the operation | ClientResp | `est_op_map` look-up by enumerator value; all cases. | proved |  |
| C46 | Header tokeniser splits exactly at delimiters | HttpHdr | `skip_quoted`, `parse_http_headers`; round trip for all header lists. | proved |  |
| C47 | Method and media type gate of the HTTP dispatcher | Server (DispatchProps) | `est_http_request`; decision logic and number of responses. | partial | False of the code: methods are compared by prefix, and an empty callback buffer causes two responses. Proved: prefix form, and exactly one response when nothing empty is handed over and the network delivers. |
| C48 | Manufacturer lookup is by verified chain | Server | `est_enhcd_cert_auth_get_mfg`; first match. | partial | False of the code: a negative (internal error) result counts as verified. Proved for results 0 and 1. |
| C49 | Client CA-certificate life cycle | ClientFlow | CA certificates of the client over histories; refusal after copying, round trip of the data. | partial | Refusal over any later sequence of calls is proved. The round trip is proved for messages without CRLs, with the client's own check (C101); false for messages with CRLs, which are rewritten. |
| C50 | Hex conversion is invertible | Hex | `est_hex_to_str`; round trip. | proved |  |
| C51 | The body handed to the EST layer is what the client sent | HttpConn | `est_mg_handler` with `mg_read`; the bytes handed on. | partial | False of the code: est_mg_handler ignores the result of mg_read. Proved without read errors. |
| C52 | Only exact EST paths reach a handler, seen from the request line | HttpConn, Url, EstUri | Request line, decoding, normalisation, parsing composed. | partial | False of the code: an encoded NUL and paths longer than 272 characters are accepted. Proved for the rest. |
| C53 | Path segments: every request path gets a defined and exact result | EstUri | `est_parse_uri` of the uriparser build; uriparser's result is characterised by its path segments. | partial | False of the code in several ways, each with a witness. Proved: documented paths are dispatched correctly and the shape of accepted paths. |
| C54 | Server-side key generation: who gets a key and what the CA signs | Server (DispatchProps) | `est_handle_server_keygen` as a trace. | proved |  |
| C55 | The user id given to the CA belongs to this request | Server (EnrollProps) | Sessions of requests on a connection with the stored user id; witness. | partial | False of the code: the user id of an earlier request on the connection is kept. Proved: it was accepted on the same connection. |
| C56 | BRSKI callbacks see only authorised clients | Server (DispatchProps) | BRSKI handlers as traces. | proved |  |
| C57 | Base64 decoding stays inside its buffers | Base64 | Index analysis of the decoder. | partial | False of the code for blank texts, which are read in front of their start. Proved for all others. |
| C58 | A CoAP certificate answer belongs to the session's own request | Coap | Runs of the enrolment handler over arbitrary interleaved sessions; invariant. | proved | Sessions with distinct keys; see C07. |
| C59 | CoAP enrolment errors map to the documented response codes | Coap | Table of response codes. | proved |  |
| C60 | The server reads a Digest header of any length inside its buffer | AuthHdr | The stack copy of the header with its size. | partial | False of the code for Digest headers from 384 characters on. Proved for all shorter headers, and for headers of any length on servers that ask for Basic or a token. |
| C61 | The client sends the whole request or reports an error | ClientReq | Header builders with `snprintf` sizes, buffer assembly; exact condition. | partial | False of the code for CSR texts above 4096 characters and for header plus CSR above 5120. Proved exactly for all others. |
| C62 | The server understands the client's request | ClientReq, HttpHdr, AuthHdr | The client's text through the server's framing, request line, header and authorisation parsers. | proved | Headers up to 1024 and CSR texts up to 4096 characters (beyond that C61); operation for requests without path segment. |
| C63 | The client takes over the server's challenge | Challenge, ClientResp | Server's challenge text through the client's parser. | proved | Realms of up to 255 characters without quote, backslash, line end. |
| C64 | A challenge of any form is read inside the received text | Challenge | `HTNextField` on a text with explicit end; induction. | partial | False of the code: an unterminated comment moves the pointer over the end. Proved for headers without an opening parenthesis. |
| C65 | Key generation responses of any form are read inside the parser's arrays | Multipart | Every access of the parser with its array; exact bounds and witnesses. | partial | False of the code in five ways. Proved: whatever is accepted is a piece of the received bytes within the limits. |
| C66 | Challenge parameters are understood in any order | Challenge | Parameter lists in any order; induction over the list. | partial | False of the code: the value of an unknown parameter is read as a name, so domain="realm" or opaque="" make the client misread the rest. Proved for all other parameter lists. |
| C67 | Trust anchors of the connections | ClientFlow | Trust anchors as part of the context, over histories. | partial | The anchors of est_client_init are used for ever; that provisioning switches to the new ones is refuted. |
| C68 | Proof of possession follows the server's attributes | ClientFlow | Demand for proof of possession over histories. | partial | Proved for answers with attributes; refuted for an answer without (204), which keeps the old demand. |
| C69 | Client path segments are understood by the server | Setter, EstUri | Client's segment check composed with the server's path parser. | proved | uriparser's syntax check is a parameter. |
| C70 | A successful client setter puts exactly its arguments in force | Setter | Outright effect of each client setter, with the string functions of the stub. | partial | Given values are stored whole and every reachable context is well formed; that omitted values are cleared is refuted for the path segment, the TLS certificate and the user id. |
| C71 | The CoAP session table is sized by the configuration and fixed while running | Setter | CoAP start, session maximum, table allocation over call sequences. | partial | Proved while allocations succeed and the port is not 0; port 0 and a failed start are refuted with witnesses. |
| C72 | Every JSON text is tokenised exactly | Jsmn | Round trip by induction over the JSON grammar. | proved | Round trip by induction over the JSON grammar. |
| C73 | The CA certificate of the voucher is reported and handed out once | Voucher | Stored certificate over calls. | partial | Holds: the stored certificate is the voucher's and the first copy hands it out. False: *cacert_len is 0 after every success, and a second copy succeeds with zeros. |
| C74 | BRSKI mode switches off the registrar's TLS verification | Voucher | Mode bits as 32-bit integers. | partial | Refusals proved. False: ~SSL_VERIFY_PEER/~SSL_VERIFY_FAIL_IF_NO_PEER_CERT sets every bit, so verification stays on, and the verify callback is dropped. |
| C75 | BRSKI bodies are JSON objects with exactly the given members | Voucher | The texts built; read back by a JSON grammar as specification. | partial | Proved for reasons that need no JSON escaping. False: a reason with quotes injects members; enrolment status with no reason passes NULL to %s; on the second attempt a shorter certificate keeps the end of the old one. |
| C76 | A client connection comes about only to the verified, rightly named server | Tls, Host | `est_client_connect` with callbacks and name check. | partial | Proved for direct connections in normal mode and certificates without over-long address entries (C11). False in BRSKI mode: a failing registrar certificate with a subject of 255 bytes or more makes the client write behind a heap buffer. Resumed sessions and the TLS handshake itself are parameters. |
| C77 | Subject texts stay inside their buffers | Tls | `est_get_subj_fld_from_cert` on buffers with sizes. | partial | Holds for buffers one byte longer than the length passed. False in ossl_verify_cb (and the loading of trust anchors), which pass the buffer's size as length. |
| C78 | A configured proxy is asked for the configured server, and never bypassed | Tls | `est_client_proxy.c` with libcurl as recorder of options. | partial | False for IPv6 addresses: the colon is searched in the empty URL, so brackets are never put. libcurl itself is a parameter. |
| C79 | Enrolment events tell the application who asked for what | Event | Event functions of the server with their buffers. | partial | The texts told are proved for non-empty subjects. False: each such event clears one byte behind the address array; an empty subject hands the application an array never written. The returned certificate is not modelled. |
| C80 | Endpoint and enrolment events come in pairs | Event | Dispatcher with events; trace of begin and end events. | partial | Pairs proved for requests the dispatcher reports as successful. False for every other request: the end is never announced. HTTP only. |
| C81 | The authentication event reports the decision and the enhanced certificate check truthfully | Event | `est_enroll_auth` with its event. | partial | The state is proved. False: well-formed Basic, Digest or token credentials of a client without certificate are reported as a validated enhanced certificate authentication. |
| C82 | The proxy forwards only authenticated, checked requests, and unchanged | Proxy (ProxyFwdProps) | Every upstream request in the trace is preceded by the checks; bytes compared. | partial | The checks are proved for every request. The body is unchanged if it has at most 4096 bytes and the request buffer is not filled to the last byte (see C84). |
| C83 | Every response declares exactly the length of its body | Proxy, Server | Length declared in the head against bytes of the body, for every response text. | partial | Proved for all responses but one. False for the proxy's response with a generated key, which declares 246 bytes too few. |
| C84 | A client of the proxy cannot make it access memory outside its buffers | Proxy (ProxyFwdProps) | Undefined outcomes of the proxy characterised by request sizes. | partial | Holds for bodies up to 4096 bytes and headers up to 1024. False beyond: larger CSRs overrun the heap buffer, or bytes never written are sent upstream. |
| C85 | The delay a client of the proxy is told belongs to its own request | Proxy (ProxyFwdProps) | State of two requests interleaved at the response. | partial | Proved for requests that are not interleaved. False for interleaved ones: the delay is kept in the context shared by all threads. |
| C86 | A server that checks proof of possession asks for it | Asn1, Setter, Server | `est_add_challengePassword`, setter and handler on DER trees; round trip. | partial | Proved for attributes that are one DER SEQUENCE. False if proof of possession is enabled after the attributes were configured, and for indefinite lengths. |
| C87 | CSR attributes are accepted within the documented size and challengePassword is found exactly | Asn1 | `est_asn1_sanity_test`, `est_asn1_parse_attributes`; bounds for all bytes, exactness on trees. | partial | No byte behind the data is read for any text. Exact for DER values of universal class. False for malformed OBJECT IDENTIFIERs, whose contents are searched. |
| C88 | The proxy hands out the upstream server's CA certificates and CSR attributes | Proxy (ProxyDistProps), Asn1 | `est_proxy_handle_cacerts`, `est_proxy_handle_csr_attrs` with the client's code underneath. | partial | Proved over HTTP for every upstream behaviour; with proof of possession, for attributes that are one DER SEQUENCE of at most 1024 bytes. False over CoAP: the first certificates retrieved are handed out to all later requests whichever path segment they name. |
| C89 | Enrolment works end to end | Wire (WireProps, WireEnrollProps) | `WireModel` puts the server's parts together: `process_new_connection` reads the bytes under an arbitrary schedule, `est_mg_handler` hands the parsed request to the dispatcher, and the effects of the handler are written out as text. The client's flow model gets that text as its answer. The theorems chain C62 (the server reads the request the client wrote), C50/C51 (reading), C33 (credentials), C20 (handler), C63 (challenge), C24/C25/C66 (the client reads what the server wrote) and C26-C29 (what the API reports). | proved | One request per connection (later ones: C100) and complete writes. What happens beyond the sizes is C61. Client-side verification of the server (C76) and the contents of CSR and certificate are not part of it. |
| C90 | CA certificates and CSR attributes reach the client's application as the server's application gave them | Wire (WireGetProps) | The GET requests through the same composition as C89: `server_reads_get` shows that the server's reader parses the client's text into the same headers, `handle_cacerts`/`handle_csrattrs` evaluate the dispatcher on it, `read_200`/`read_error` say what the client's reader makes of the text the server wrote, and the flow model says what the API functions store and return. Which attribute text the server decides to send is C86. | partial | Proved for data that is non-empty, shorter than the client's 2,000,000 byte bound and does not begin with a line break, and complete writes of the server. False for data that begins with CR or LF. PKCS7 parsing and certificate verification at the client are parameters (C101). |
| C91 | Proof of possession binds the certificate to the client's own TLS session, end to end | Wire (WirePopProps) | C86 (which attributes the server sends), C90 (they reach the client), the client's `generate` with the id of the session, and C89 with C22 for the comparison. `Understands` is the hypothesis that the server's `est_read_x509_request` inverts the client's encoding; it is met by a concrete pair in the examples. `C91_same_channel` turns the success of the client's call into equality of the two ids. | proved | The offer of challengePassword by the server, its way to the client, the id in the CSR and the comparison. That the server's parser gives back the attributes which the client's encoder put in is a hypothesis about OpenSSL; C22 says what happens with ids of different lengths; registration authorities are exempt. |
| C92 | Only complete, well-formed requests reach the EST handlers; all others are refused without effect | Wire (WireGateProps) | `serve` models `process_new_connection` for the first request. `C92_handled` is proved from `readRequest_spec`, C12 and `mgRead_spec` for any schedule of reads, also with errors; the refusals are evaluated for headers that arrive completely. `Refused` describes the response independently of the model's `refuse`. | partial | All requests with defined behaviour are covered. A body that is cut off after its header is handled all the same, with bytes that were never read (C92_incomplete_body_false, see C51). The first request of a connection; later ones are C13. |
| C93 | Server-side key generation end to end | Wire (WireKeygenProps) | The composition of C89 for `.serverKeygen`: `handle_keygen` evaluates the dispatcher and `est_handle_server_keygen` on the client's POST and shows that the five writes make up `Multipart.serverText`; `Multipart.server_general` (C42) says what the client's multipart parser makes of it; the flow model stores both parts and compares them. `C93_short_key_false` carries the limit of C42 through to the API. | partial | False for keys whose text has less than 256 characters (P-256 keys have 184): the client discards what the server sent. Otherwise proved for clients let in by certificate, texts without hyphen and NUL, key texts of at most 8192 and certificates of at most 4096 characters, complete writes; re-signing of the CSR, the CA and the comparison of key and certificate are parameters. |
| C94 | CoAP sessions do not influence each other | CoapAll (CoapAllModel, CoapAllProps) | `CoapAllModel` models all four CoAP handlers over the request table of `CoapModel`; `serve` runs a history of messages, connects and closes. The proof is a simulation: `act_own` shows that the record of one session evolves as `ownStep` of its own actions, using the invariant of the sorted table (C05) and a pigeonhole argument for the free slot (`nodup_length_le`). | proved | All five resources, connects and closes. Sessions are told apart by the key the table uses; that two peers can have the same key is C07. |
| C95 | CA certificates and CSR attributes over CoAP are exactly the server's | CoapAll (CoapGetProps) | The two GET handlers. `TextOf` relates a text to the bytes it encodes by the independent encoder of C01; `C95_same_*_as_http` compares with the handlers of `DispatchModel`. `Cut` (libcoap's `coap_add_block`) is a parameter; `CutOk` says that it cuts the stored response at multiples of the block size, and `C95_blocks_consistent` that all blocks are then from one response, even if the server's data changes in between. | partial | False for repeated requests: the response stored for the session is served for ever, also after the server's data changed, without looking at Accept. False for a callback that returns an empty text: the decoder reads before its buffer. libcoap's splitting into blocks is a parameter. |
| C96 | Key generation over CoAP returns exactly this request's key and certificate | CoapAll (CoapSkgProps) | `keygenProcess` with the CBOR model of C03; the payload is read back by the independent CBOR reader of C03. `C96_only_this_request` is the converse: where any 2.04 content comes from. | partial | Proved for requests of at least 5 bytes; requests of 1, 2 or 4 bytes overrun the handler's buffer. The EST layer's key generation is a parameter (C21, C98). |
| C97 | Endpoint events over CoAP frame each exchange | CoapAll (CoapSkgProps) | `Phase` lists the calls of `est_invoke_endpoint_req_event_cb` of one message. Case analysis of all exits of the handlers; `C97_end_iff` and `C97_start_iff` are exact. | partial | Exactly when START and END are announced is proved for every message and state. False as a pairing: END without START for a stored response, a refused Accept and a missing certificate; START twice for an upload begun anew. |
| C98 | Over CoAP everything sent has its source in the same session | CoapAll (CoapSourceProps) | `Source` says where a response comes from, in terms of the history and the EST layers only (`Made` for each resource, with the independent `TextOf`/`DecodesTo` and `Submitted`); `Known` is the invariant that the response in a session's record has a source. It is kept by every action (`own_known`), also by those of other sessions (`known_others`), and `act_any` carries it through the table without any assumption about free records. | proved | Sessions are told apart by the key the table uses; that two peers can have the same key is C07. A connect of a session that is already there does not end it. The application data behind the EST layer is a parameter. |
| C99 | Enrolment and key generation over CoAP end to end | CoapAll + Server (CoapEnrollModel, CoapEnrollProps) | `coapEnroll`/`coapKeygen` run `Server.simpleEnroll`/`serverKeygen` with CoAP transport and the arguments the CoAP handlers pass. `Serves` ties the EST layer of C98 to them; `Checked`/`CheckedKey` say in terms of the configuration, the TLS state and the CSR what has been checked. Completeness goes through `upload_run`, an induction over the blocks of an upload on the session's own record, and `serve_own` (C94) for the other sessions. | proved | The upload is proved to succeed for clients without enhanced certificate authentication, CSRs of 5 to 16384 bytes, certificate texts as OpenSSL writes them, and at most as many sessions as the table has records. Parsing and signatures of CSRs and the CA are parameters. |

## 3. Trusted base

* The Lean 4.33.0 kernel and the axioms `propext`, `Classical.choice`, `Quot.sound` (list below).
* The reading of the C sources. The theorems are about the model; the code was not built or run. Every
  definition cites the lines it models and its simplifications, so that it can be compared.
* Descriptions of library functions that are part of a model:
  * OpenSSL's base64 BIO (`Base64Model`: alphabet, padding, line breaks; what it delivers for malformed input
    is an arbitrary function `odd`);
  * OpenSSL's `ASN1_get_object`, `d2i_ASN1_OBJECT`, `i2t_ASN1_OBJECT` (`Asn1Model`, after OpenSSL 1.1.1);
  * `qsort` is any function returning a sorted permutation, `bsearch` any function returning a matching
    index of a sorted array if there is one (`CoapModel`, `ProxyTableModel`);
  * the safe C string stub under `/repo/safe_c_stub` as written, C library `atoi`, `strtol`, `strncpy`,
    `snprintf` with `%s` and `%d` only;
  * uriparser: a path is split at `/`; whether it accepts a text is a parameter.
* Everything else outside libest is a parameter: an arbitrary value or function. This holds for the TLS and
  X.509 results of OpenSSL, the hash function, the network (how many bytes each read and write moves and
  whether it fails), libcoap's delivery of messages, libcurl, the clock and the application's callbacks.

### What is modelled

| file | modelled | not modelled |
|------|----------|--------------|
| `est.c` | base64, hex, ASN.1 attribute functions, URI and path segment parsing, challengePassword, `skip_quoted`, TLS unique id length rules | certificate list output (`est_get_certs_pkcs7`), trust anchor parsing, CRL switches, log and timer functions, error text table |
| `est_client.c` | host name check, digest and Basic headers, request builders, all enrolment operations, cacerts, csrattrs, retry, copy functions, setters, BRSKI, verification callback, check of received CA certificates, connection set-up, ownership of memory by all non-BRSKI calls | SRP set-up, `est_client_init_ssl_ctx` cipher choices, TLS session cache, key and CSR generation inside OpenSSL, `est_client_force_pop` text generation beyond its effect |
| `est_client_http.c` | response reader, header parser, challenge parser, status mapping, keygen response | reading with `SSL_read` and `select` (bytes are given) |
| `est_client_proxy.c` | direct and libcurl connections (POSIX) | Windows build |
| `est_enhcd_cert_auth.c` | manufacturer list, look-up, CSR check results | X.509 name field extraction in OpenSSL |
| `est_ossl_util.c` | subject field text, verification callback | store loading beyond its buffer use |
| `est_proxy.c` | whole request handling, thread table, set-up calls | locking (there is none), event callbacks |
| `est_server.c` | authentication, enrolment, key generation, csrattrs, cacerts, BRSKI handlers, dispatcher, setters, events, ownership of memory per HTTP request | cipher set-up, SRP and DH set-up, the `est_server_start` life cycle |
| `est_server_coap.c` | option check, request table, block reassembly, all four resource handlers with their endpoint events, connect and close of sessions, key generation payload, DTLS timer, session maximum, CoAP start | libcoap set-up, message layer and splitting of responses into blocks (a parameter), DTLS callbacks |
| `est_server_http.c` | connection loop, framing, header parser, URL decoding, authorisation headers, challenge, responses | certificate display, socket functions |
| `jsmn.c`, `multipart_parser.c` | all | - |
| `example/`, `java/` | - | all |

Threads are modelled only where stated (C85: interleaving of two requests of the proxy). Memory
allocation succeeds except in the setters of C30, C31 and C71 and in C102 and C103, where any allocation may fail.


### Axioms of each theorem of the manifest

Printed by `#print axioms`. No other axioms occur anywhere.


**none** (31 theorems)

* `Verif.Asn1`: C118_end_not_reported_false
* `Verif.CliTls`: C135_brski_false, C135_names, C135_unchanged_partial
* `Verif.Coap`: C95_fresh_again
* `Verif.EstUri`: C17_paths_distinct
* `Verif.Hook`: C138_brski_refused, C138_brski_taken, C138_data_set, C138_event_registered, C138_passive
* `Verif.HttpConn`: C13_discard_overflow_false, C51_uninitialised_body_false
* `Verif.Io`: C123_client_signal_false, C123_client_stuck_false, C123_write_zero_false
* `Verif.Safe`: C115_isdigit_false, C115_memzero
* `Verif.SampleCli`: C130_password_false, C130_token_false, C130_token_other
* `Verif.Server`: C22_malformed_attribute_undefined_false, C22_short_password_undefined_false
* `Verif.Util`: C137_big_false, C137_ec_false, C137_empty_false, C137_file_false, C137_overflow_false, C137_write_false
* `Verif.Voucher`: C75_second_cert_false
* `Verif.Wire`: C89_modes

**propext** (151 theorems)

* `Verif.Asn1`: C118_add, C118_no_attributes_false
* `Verif.AuthHdr`: C60_other_modes_partial
* `Verif.Challenge`: C63_second_challenge, C64_empty_name_is_realm, C66_empty_algorithm_false, C66_empty_value_false, C66_unknown_value_false
* `Verif.CliTls`: C135_all_or_nothing, C135_srp_cert
* `Verif.ClientResp`: C28_leading_newline_refused, C28_many_headers_false, C45_content_types, C45_table_entry
* `Verif.Coap`: C09_single_message_false, C44_accept_accepted_iff, C44_accept_code, C44_format_accepted_iff, C44_format_code, C95_same_attrs_as_http, C95_same_cacerts_as_http
* `Verif.CoapStart`: C136_request
* `Verif.Cred`: C107_digest_uri_partial, C107_learns_once
* `Verif.Date`: C134_caller_safe_false, C134_exists_false, C134_late_false, C134_letters_false, C134_negative_false, C134_offset_false, C134_range, C134_replaced, C134_reported_false, C134_rest_false, C134_rfc850_false, C134_safe_false, C134_unparsed_false, C134_weekday_false, C134_year_first_false, C134_zero_false
* `Verif.EstUri`: C53_empty_operation_false, C53_operation_from_query_false, C53_prefix_accepted_false, C53_short_paths_undefined_false
* `Verif.Event`: C79_unreadable, C81_state
* `Verif.GetOpt`: C133_abbreviation_false, C133_argument_false, C133_keypass_false, C133_minus_false, C133_no_name_false, C133_optional, C133_optional_false
* `Verif.Hook`: C138_error, C138_silent
* `Verif.Host`: C10_empty, C11_long_address_false, C11_no_certificate
* `Verif.HttpConn`: C13_body_taken_for_request_false
* `Verif.Io`: C123_client_silent, C123_written_all, C123_written_exact
* `Verif.Log`: C125_backtrace_alone_false, C125_dropped, C125_no_errors_false, C125_no_symbols_false, C125_ssl_errors_default
* `Verif.Manual`: C119_automatic, C119_failure_uses_approval_false, C119_signed_is_own, C119_tree_released_false
* `Verif.ProxyTable`: C40_two_proxies_cleanup_false, C40_two_proxies_false
* `Verif.PxSample`: C139_manufacturer, C139_upstream_false
* `Verif.Queue`: C126_left_open_false, C126_use_after_return_false
* `Verif.Safe`: C115_strcasecmp_false, C115_strcat_false, C115_strncat_false
* `Verif.SampleCa`: C127_long_serial_false, C127_serials_unique_false
* `Verif.SampleCli`: C130_token_memory, C130_token_partial, C130_verify
* `Verif.Server`: C19_certificate_alone_false, C22_absent, C22_accepts_only_own_id_partial, C22_extended_password_false, C22_no_id_rejects, C47_extended_method_false, C47_two_responses_false, C55_stale_user_id_false
* `Verif.Setter`: C30_out_of_memory_false, C30_rejected_unchanged_partial, C31_atomic_setters, C31_csrattrs_cleared, C31_csrattrs_lost_false, C31_set_auth_key_false, C31_set_auth_mixed_false, C31_set_proxy_false, C31_set_server_false, C32_full_list_false, C70_old_certificate_false, C70_old_user_false, C70_segment_kept_false, C70_unknown_protocol_accepted, C71_failed_start_locks_false, C71_port_zero_false
* `Verif.SrvAuth`: C129_csrattrs_default_false, C129_no_subject_false, C129_null, C129_srp_leak_false, C129_token_label_false
* `Verif.SrvBrski`: C128_last_token_false, C128_print_false, C128_reason_false, C128_status_no_memory
* `Verif.SubjField`: C140_arguments
* `Verif.Thread`: C124_asked_twice_false, C124_not_asked_false, C124_proxy_known_threads_partial, C124_proxy_other_context_false, C124_proxy_released_table_false, C124_proxy_same_entry_false
* `Verif.Timer`: C113_down_time, C113_down_time_safe, C113_down_time_switched, C113_http, C113_http_disabled, C113_http_switched_on_false, C113_repeated_false, C113_switched_on_false
* `Verif.Tls`: C37_not_asked, C37_unchanged
* `Verif.Util`: C137_endless_false, C137_unopened
* `Verif.Voucher`: C36_cacert_overflow_false, C36_nested_member_false, C36_serial_overread_false, C36_signature, C36_token_overread_false, C36_value_as_name_false, C73_first_copy_partial, C73_second_copy_false
* `Verif.Wipe`: C120_coap_lost_false, C120_destroy_false, C120_other_requests_false, C120_proxy_key_false, C120_token_array_false
* `Verif.Wire`: C111_csrattrs_pop

**Quot.sound, propext** (461 theorems)

* `Verif.Asn1`: C118_bad_base64, C118_cut_short, C118_cut_short_endless_false, C23_oversize
* `Verif.AuthHdr`: C33_configured_scheme_only
* `Verif.Base64`: C02_exact_fit_false, C02_fits_partial, C02_zero_untouched, C57_decode_bounds_partial
* `Verif.BrskiMem`: C122_connection_lost_false, C122_grows_false, C122_no_serial_false, C122_one_failure_partial, C122_other_type_false
* `Verif.CaVerify`: C101_internal_error_false, C101_no_certificate_false, C101_overread_false, C49_crls_false
* `Verif.Cbor`: C03_no_overrun
* `Verif.Challenge`: C64_no_comment_partial, C64_open_comment_false
* `Verif.CliTls`: C135_context, C135_defined, C135_exclusive, C135_server, C135_suites, C135_unchanged_false
* `Verif.ClientMem`: C102_double_release_false, C102_enroll_buffers_lost_false, C102_key_after_failure_partial, C102_key_generation_failures_partial, C102_no_content_false, C102_null_parser_false, C102_private_key_lost_false, C102_reenroll_false_success, C102_refused_ciphers_false, C102_session_lost_false
* `Verif.ClientReq`: C61_cacerts_request, C61_csrattrs_request, C61_intact_iff_partial, C61_overrun_false, C61_reachable_false, C61_sent_intact_partial, C61_uninitialised_sent_false, C62_headers_found, C62_operation
* `Verif.ClientResp`: C24_success_only_for_200
* `Verif.Coap`: C07_five_digit_ports_partial, C07_mixed_request_false, C07_same_address_partial, C07_same_key_false, C07_same_key_v6_false, C07_same_width_partial, C08_gap_refused, C09_bounded_messages_partial, C44_handler_refuses, C58_certificate_of_this_request, C58_client_certificate_required, C58_new_request_not_stale, C95_accept_refused, C95_errors, C95_no_certificate_needed, C95_nothing_held, C95_served_from_record, C95_stale_false, C95_tls_needed, C96_errors, C96_only_this_request, C96_refused, C97_end_iff, C97_order, C97_start_iff, C97_unpaired_false
* `Verif.CoapMem`: C121_callback_released_false, C121_cbor_null_false, C121_hex_null_false, C121_incomplete, C121_lost_false, C121_result_lost_false
* `Verif.CoapStart`: C136_balanced_partial, C136_dtls_false, C136_failed_false, C136_failed_partial, C136_listens_false, C136_listens_partial, C136_mutual, C136_resources, C136_restart_false, C136_revoked_false, C136_socket_false, C136_start_iff
* `Verif.Config`: C104_default_reenroll_false, C104_enforcement_lapses_false, C109_calls_decide, C109_internal_error_false, C109_nothing_to_compare_false, C109_other_field_false
* `Verif.Cred`: C107_intended_partial, C107_long_password_false, C107_longest_user_false, C107_never_without, C107_no_digest_no_request, C107_refused_call_false, C107_refused_challenge
* `Verif.Date`: C134_caller
* `Verif.EstUri`: C17_exact_paths, C17_others_rejected, C52_encoded_nul_false, C52_exact_dispatch_partial, C52_long_path_false, C53_accepted_shape_partial
* `Verif.Event`: C79_empty_cert_subject_false, C79_empty_subject_false, C79_endpoint, C79_stray_false, C79_told_partial, C80_no_end_false, C80_others, C80_success_partial, C81_eca_reported, C81_refused_cert, C81_validated_false, C81_validated_partial
* `Verif.Flow`: C26_at_most_two, C26_volunteered_false, C27_enroll_csr_false, C27_enroll_resets_partial, C27_keygen_csr_false, C27_leaked_mode_no_retry, C27_reenroll_false, C29_copied_once, C29_failure_keeps_partial, C29_invalid_pair_false, C29_kept_until_copied, C29_keygen_stores, C29_other_calls_keep, C29_reenroll_no_request_false, C29_success_stores_partial, C43_generated_request, C43_no_key_unchanged, C49_csrattrs_not_refused, C49_get_then_copy_partial, C49_refused_after_copy, C67_new_anchors_unused_false, C68_pop_follows_attributes_partial, C68_stale_demand_false
* `Verif.Hex`: C50_hex_injective, C50_hex_round_trip
* `Verif.Hook`: C138_brski, C138_brski_stays, C138_data, C138_event, C138_no_stranger
* `Verif.HttpConn`: C14_body_prefix, C14_complete_read
* `Verif.HttpHdr`: C18_keep_alive, C46_header_count, C46_lookup_first_match
* `Verif.Init`: C110_empty_answer_false, C110_length_false, C110_long_subject_false, C110_missing_table_false, C110_refused_server_false, C110_unreadable_answer_false
* `Verif.Io`: C123_client_prefix, C123_client_success_means, C123_client_time_partial, C123_client_too_long, C123_client_whole_response, C123_cut_connection_false, C123_full_buffer_false, C123_keep_alive_false, C123_printed_text_false, C123_printed_text_partial, C123_server_time_out, C123_signals_false, C123_slow_server_false, C123_stop_is_honoured, C123_written_in_time
* `Verif.Jni`: C117_conversion_index_false, C117_csr_null_array_false, C117_csr_null_false, C117_digest_lost_false, C117_length_index_false, C117_limit_race_false, C117_no_content_false, C117_no_extensions_false, C117_null_refused, C117_refused_request, C117_srp_class_false, C117_srp_dropped_false
* `Verif.Life`: C106_coap_crl_false, C106_coap_proxy_stop_false, C106_coap_sessions, C106_destroy_false, C106_dropped_false, C106_failed_start_false, C106_first_start_serves_partial, C106_handle_result_partial, C106_lost_false, C106_restart_false, C106_sessions, C106_start_result, C106_use_after_stop_false
* `Verif.Log`: C125_certificates_false, C125_certificates_partial, C125_last_setting, C125_quieter
* `Verif.Manual`: C119_large_answer_false, C119_same_client_false, C119_tree_memory
* `Verif.Multipart`: C42_leading_hyphen_false, C65_long_boundary_false, C65_lookbehind_false, C65_many_headers_false, C65_missing_boundary_false, C65_pieces_of_response_partial, C65_short_value_false
* `Verif.Proxy`: C39_retry_depends_on_own_mode, C41_stale_segment_false, C82_malformed_header_false, C83_length_exact_partial, C83_proxy_keygen_false, C83_server_texts_partial, C84_example_false, C84_no_overrun_partial, C85_shared_delay_false, C88_attrs_unchanged, C88_cacerts, C88_coap_cacerts, C88_coap_segment_false, C88_own_cacerts
* `Verif.ProxyMem`: C116_attrs_lost_false, C116_bufmem_lost_false, C116_bufmem_null_false, C116_entry_fits, C116_handshake_false, C116_key_lost_false, C116_keygen_null_false, C116_no_content_false, C116_refused_csr_false, C116_table_null_false
* `Verif.ProxyTable`: C40_thread_keys
* `Verif.PxSample`: C139_auth, C139_basic_false, C139_calls, C139_eca, C139_mode, C139_password, C139_realm_false, C139_server_false, C139_serves, C139_srp, C139_texts_false, C139_token_false, C139_token_partial, C139_truststore_false, C139_upstream, C139_wait, C139_wait_false
* `Verif.Queue`: C126_lost_wakeup_false
* `Verif.Reader`: C141_balanced, C141_cut_false, C141_key_partial, C141_limit_false, C141_negative_false, C141_request_partial, C141_roundtrip
* `Verif.Safe`: C115_delims_false, C115_memcpy, C115_memmove, C115_memset, C115_null_memory, C115_null_string, C115_span, C115_strcat_partial, C115_strcmp, C115_strcpy_false, C115_strcpy_partial, C115_strncat_partial, C115_strncpy, C115_strnlen, C115_strnlen_str, C115_strstr, C115_strtok_false, C115_strtok_partial
* `Verif.SampleArgs`: C131_accepted, C131_key, C131_long_false, C131_long_name_false, C131_long_server_false, C131_nonsense, C131_numbers, C131_password_false, C131_reenroll_csr_false, C131_requests, C131_socks_false, C131_threads_false, C131_trust_false, C131_trust_later_false, C131_trust_partial, C131_typed_false, C131_values
* `Verif.SampleCa`: C127_odd_serial, C127_stuck_false
* `Verif.SampleCli`: C130_ca_then_enrol_false, C130_common_name_false, C130_context, C130_files_false, C130_files_partial, C130_key_lost_false, C130_names_false, C130_other_ends, C130_password_partial, C130_pop_false, C130_pop_partial, C130_reported, C130_req_freed_false, C130_set_up, C130_silent_false, C130_silent_partial, C130_thread, C130_waits_false, C130_wanted
* `Verif.Server`: C19_bad_certificate_refused, C22_exact_for_equal_length_partial, C47_handler_gate_partial, C48_csr_repeats_identity, C48_first_verifying_partial, C48_internal_error_false
* `Verif.ServerMem`: C103_attributes_false, C103_body_null_false, C103_ca_buffer_false, C103_callback_buffer_false, C103_eca_csr_false, C103_header_null_false, C103_name_present, C103_oid_list_false, C103_segment_null_false
* `Verif.Sess`: C105_other_server_false, C105_set_auth_clears
* `Verif.Setter`: C30_fips_no_digest, C31_csrattrs_accepted, C31_csrattrs_rejected_partial, C31_eca_accepted, C31_eca_rejected, C31_set_auth_partial, C31_set_server_partial, C32_at_most_four, C32_only_disable_removes, C32_registration, C70_set_auth_partial, C70_set_proxy_partial, C70_set_server_partial, C71_running_table_kept_partial, C71_table_size_partial
* `Verif.Sock`: C114_second_false
* `Verif.SrvAuth`: C129_basic_text, C129_csrattrs_end_false, C129_csrattrs_env, C129_eca_header_false, C129_known_let_in, C129_no_response_false, C129_options, C129_srp, C129_subject_false, C129_subject_partial
* `Verif.SrvBrski`: C128_client_request, C128_forged_serial_false, C128_memory, C128_no_body_false, C128_print_partial
* `Verif.Subject`: C132_flags_false, C132_freed_false, C132_freed_partial, C132_join_false, C132_memory, C132_no_value_false, C132_written
* `Verif.Thread`: C124_attributes_interleaved_partial, C124_attributes_one_by_one, C124_manual_lost_false, C124_manual_never_first, C124_manual_twice_false, C124_proxy_alone
* `Verif.Timer`: C113_disabled, C113_every_end, C113_http_not_switched_on_partial, C113_not_switched_on_partial, C113_parts_add_up, C113_session, C113_text
* `Verif.Tls`: C37_server_partial, C76_addresses, C76_brski_false, C76_errors, C77_long_subject_false, C77_subject_partial, C77_verify_callback_false, C78_ipv6_false, C78_no_bypass, C78_no_libcurl, C78_url_partial
* `Verif.Url`: C15_decode_inverts_encoding, C16_clean_unchanged, C16_idempotent, C16_only_deletes, C16_path_is_clean
* `Verif.Util`: C137_ec_partial, C137_ends_partial, C137_load, C137_missing, C137_rsa
* `Verif.Voucher`: C27_status_mode, C28_voucher_size, C36_accepted_any, C38_bounded, C61_brski_overflow_false, C61_brski_partial, C73_length_false, C74_refused_partial, C74_verification_stays_on_false, C75_enroll_status_partial, C75_enroll_status_refused, C75_enroll_status_sent, C75_null_reason_false, C75_reason_false, C75_voucher_request_partial, C75_voucher_status_partial, C75_voucher_status_refused, C75_voucher_status_sent
* `Verif.Wipe`: C120_basic_array, C120_basic_frame, C120_basic_frame_false, C120_callback_values, C120_cleanse, C120_cleanse_false, C120_cleanse_tail, C120_client_key_false, C120_client_key_left, C120_coap_key, C120_coap_node_false, C120_coap_partial_false, C120_copy_key, C120_digest_frame, C120_enroll_request, C120_key_handed_over, C120_proxy_key, C120_server_credentials, C120_server_key, C120_server_key_hidden, C120_server_other_block, C120_token_frame_false
* `Verif.Wire`: C100_goes_on, C100_name_carried_over, C108_certificate_is_issued, C108_same_as_direct, C112_status_header_false, C89_routes_plain, C90_leading_newline_false, C92_no_answer

**Classical.choice, Quot.sound, propext** (412 theorems)

* `Verif.Asn1`: C118_accepted_no_error, C118_decode, C118_each_once_partial, C118_endless_false, C118_inside, C118_server_keeps_busy_false, C23_attributes_inside, C23_by_text_partial, C23_enrol_partial, C23_exact_partial, C23_large_with_pop_false, C23_long_oid_false, C23_reads_behind_false, C86_accepted_again_partial, C86_added_partial, C86_callback_partial, C86_default, C86_enabled_later_false, C86_indefinite_false, C86_stored_partial, C87_exact_partial, C87_inner_false, C87_inside
* `Verif.AuthHdr`: C33_basic_round_trip_partial, C33_empty_user_false, C33_token_round_trip, C34_agreement_means_same_password, C34_header_round_trip, C34_same_value, C60_long_header_false, C60_long_user_false, C60_short_header_partial
* `Verif.Base64`: C01_round_trip, C01_round_trip_newlines, C01_short_destination, C02_coap_caller_partial, C02_coap_short_request_false, C02_every_exact_fit_false, C02_out_of_bounds_iff, C57_blank_text_false
* `Verif.BrskiMem`: C122_accepted_false, C122_foreign_blocks_kept_partial, C122_no_leak_partial, C122_refused_false, C122_safe_partial, C122_safe_with_memory_partial
* `Verif.CaVerify`: C101_accepted_iff, C101_chain_partial, C101_crls_removed, C101_handed_out_partial, C101_one_bad_refused, C49_get_then_copy_no_crls_partial
* `Verif.Cbor`: C03_payload_parses, C03_sent_iff_fits
* `Verif.Challenge`: C63_digest_agrees, C63_mode, C63_tokens, C66_parameters_partial
* `Verif.CliTls`: C135_authentic
* `Verif.ClientMem`: C102_foreign_blocks_kept_partial, C102_no_leak_partial, C102_safe_partial, C102_safe_with_memory_partial
* `Verif.ClientReq`: C62_basic_credentials, C62_server_reads_request
* `Verif.ClientResp`: C24_error_round_trip, C25_only_usable_values, C25_retry_after, C25_server_retry, C28_body_complete_and_typed_partial, C28_complete_response_accepted
* `Verif.Coap`: C05_free_slot_served, C05_full_table_unchanged, C05_table_well_formed, C06_isolation, C06_table_is_map, C08_late_first_block, C08_reassembly, C09_overrun_false, C09_reachable_false, C58_sessions_do_not_mix, C59_error_code, C94_full_table, C94_open_session_unaffected, C94_sessions_independent, C95_attrs_exact, C95_blocks_consistent, C95_cacerts_exact, C95_empty_attrs_false, C95_too_long, C96_key_and_certificate, C96_one_message, C96_short_request_false, C97_upload, C98_everything_sent_has_a_source, C99_enrolled, C99_key_generated, C99_only_after_checks
* `Verif.CoapMem`: C121_bad_attributes_false, C121_bad_cacerts_false, C121_callback_fresh_false, C121_get_safe_partial, C121_no_leak_partial, C121_safe_partial
* `Verif.CoapStart`: C136_port
* `Verif.Config`: C104_answers_as_configured, C104_attributes_enforced_partial, C104_attributes_of_the_callback, C104_coap_needs_certificate, C104_credentials_keygen_partial, C104_credentials_unless_waived_partial, C104_last_call_decides, C104_pop_unless_disabled, C104_pop_unless_disabled_keygen, C109_accepted, C109_application_decides_partial, C109_keygen_partial
* `Verif.Cred`: C107_application_decides, C107_basic_client_partial, C107_digest_client_partial, C107_digest_uri_false, C107_learns, C107_no_token_false, C107_token_client_partial
* `Verif.Date`: C134_asctime, C134_calendar, C134_fits, C134_offset_partial, C134_rfc1123, C134_rfc850_partial, C134_safe_partial, C134_stored_partial
* `Verif.DtlsTimer`: C04_setter_range, C04_timer_capped_monotone, C04_timer_value
* `Verif.EstUri`: C53_documented_paths_partial
* `Verif.Event`: C80_enrolment
* `Verif.Flow`: C26_credentials_only_if_asked_partial, C29_enroll_then_copy, C43_csr_attributes, C67_anchors_never_change
* `Verif.GetOpt`: C133_clear_partial, C133_client, C133_reads, C133_safe, C133_unique
* `Verif.Hex`: C50_hex_length
* `Verif.Hook`: C138_separate
* `Verif.Host`: C10_ip_host, C10_match_iff, C11_accepts_iff_partial, C11_common_name_ignored
* `Verif.HttpConn`: C12_arrival_independent, C12_negative_iff_bad, C12_positive_iff_header, C12_stable, C12_within_buffer, C13_buffer_bound, C13_discard_within_buffer, C13_requests_partition_stream_partial, C51_body_is_what_was_sent_partial
* `Verif.HttpHdr`: C46_headers_round_trip, C46_message_round_trip
* `Verif.Init`: C110_client_init, C110_proxy_balanced_partial, C110_proxy_init, C110_server_balanced_partial, C110_server_init
* `Verif.Io`: C123_body_refines, C123_header_refines, C123_incomplete_record_false, C123_server_body_exact, C123_server_body_time_partial, C123_server_wait_bounded_partial, C123_server_wait_decided, C123_slow_body_false
* `Verif.Jni`: C117_cacerts_no_leak_partial, C117_cacerts_partial, C117_copies_stay_false, C117_csr_no_leak_partial, C117_csr_partial, C117_enroll_checked_partial, C117_enroll_no_leak_partial, C117_enroll_partial, C117_limit
* `Verif.Jsmn`: C35_memory, C35_tokens, C72_json_text
* `Verif.Life`: C106_orderly_calls_partial
* `Verif.Log`: C125_delivered, C125_error_announced, C125_not_terminated_false, C125_ssl_errors_partial
* `Verif.Manual`: C119_builds_agree, C119_certificate, C119_half, C119_keygen_never, C119_list_memory, C119_new_key_waits, C119_no_bypass, C119_order, C119_second_request, C119_second_request_list, C119_told_to_wait, C119_waited_before
* `Verif.Multipart`: C42_server_response_partial, C42_short_key_false, C42_split_partial, C65_no_multipart
* `Verif.Proxy`: C39_at_most_two, C39_certificate_passed_on, C39_every_outcome, C39_no_connection, C39_only_upstream_certificate, C39_upstream_error, C39_upstream_retry, C41_history_partial, C41_segment_partial, C82_body_unchanged_partial, C82_only_checked, C84_overrun_false, C84_uninitialised_false, C85_own_delay_partial, C88_attrs_with_pop_partial
* `Verif.ProxyMem`: C116_get_safe_partial, C116_no_leak_partial, C116_peer_reference_false, C116_safe_partial
* `Verif.ProxyTable`: C40_directory_partial, C40_same_thread_same_context_partial
* `Verif.PxSample`: C139_let_in, C139_long_password_false, C139_realm_partial, C139_response_false, C139_texts_partial, C139_wait_iff
* `Verif.Queue`: C126_at_most_once, C126_closed_once, C126_context_alive, C126_counters, C126_first_come, C126_mutual_exclusion, C126_no_deadlock, C126_nothing_forgotten, C126_shutdown_partial, C126_stopped
* `Verif.Safe`: C115_isdigit_partial, C115_memcmp, C115_strcasecmp_partial
* `Verif.SampleArgs`: C131_ident, C131_keygen_false, C131_limits, C131_options, C131_reenroll_csr_partial, C131_typed
* `Verif.SampleCa`: C127_content, C127_empty_subject_false, C127_extensions, C127_goes_on, C127_serials_increase, C127_serials_unique, C127_strings, C127_subjects_unique, C127_survives
* `Verif.SampleCli`: C130_at_most_twice, C130_csr_freed, C130_names_partial, C130_talk
* `Verif.Server`: C19_authorised_only_with_evidence, C19_http_auth_enforced_partial, C20_ca_only_after_checks, C20_callback_of_the_operation, C21_answers, C21_only_ca_output_sent, C47_exactly_one_response_partial, C54_ca_gets_server_key, C54_key_only_with_certificate, C55_coap_no_user, C55_first_request_partial, C55_user_accepted_on_connection_partial, C55_user_from_accepted_credentials_partial, C56_callback_only_authorised, C56_response, C56_voucher_only_from_callback
* `Verif.ServerMem`: C103_bad_basic_false, C103_bad_token_false, C103_digest_twice_false, C103_get_safe_partial, C103_no_leak_partial, C103_safe_partial
* `Verif.Sess`: C105_credentials_partial, C105_only_to_the_named_server, C105_requests_name_the_server, C105_set_server
* `Verif.Setter`: C30_ranges, C30_setters, C69_accepted_iff, C69_server_understands, C70_client_ranges, C70_set_auth_accepts, C70_set_proxy_accepts, C70_set_server_accepts, C70_simple_setters, C71_start
* `Verif.Sock`: C114_closed_partial, C114_forward_false, C114_no_stray, C114_voucher_false
* `Verif.SrvAuth`: C129_basic, C129_client_basic_partial, C129_client_digest_partial, C129_client_token_partial, C129_digest, C129_let_in_partial, C129_long_response_false, C129_replay_false, C129_safe_partial, C129_starts, C129_token, C129_token_cut_false, C129_values
* `Verif.SrvBrski`: C128_enroll_status, C128_long_voucher_false, C128_no_certificate_false, C128_nonce_false, C128_print_json, C128_refused, C128_round_trip_partial, C128_signed, C128_status_any_partial, C128_status_false, C128_status_object_partial, C128_status_success, C128_unsigned_false, C128_unsigned_text, C128_voucher_false, C128_voucher_partial, C128_voucher_status
* `Verif.SubjField`: C140_absent, C140_device_partial, C140_local_partial, C140_long_false, C140_safe, C140_second_false, C140_texts, C140_user_partial, C140_wide_false, C140_zero_byte_false
* `Verif.Subject`: C132_join_partial, C132_reads, C132_refuses, C132_round_trip, C132_safe_partial, C132_unique
* `Verif.Tls`: C37_accepts_iff, C37_chain, C76_connected_iff_partial, C76_which_error, C78_credentials
* `Verif.Url`: C15_decode_any_text, C15_decode_bounds, C15_decode_in_place_succeeds
* `Verif.Util`: C137_block, C137_read_partial, C137_roundtrip
* `Verif.Voucher`: C36_accepted_partial, C36_scan, C36_voucher_partial, C38_delay, C38_total
* `Verif.Wire`: C100_as_if_alone, C100_every_answer_explained, C100_names_of_this_connection, C100_one_after_the_other, C108_answer, C108_checked_at_the_end, C108_client, C108_client_asked, C108_enrol_and_copy, C108_reenroll, C111_cacerts, C111_csrattrs, C111_csrattrs_unchanged, C112_later, C112_pinned, C112_report, C112_report_password, C112_voucher, C112_voucher_password, C89_certificate_client, C89_first_attempt, C89_password_client, C89_reenroll, C89_routes_segment, C89_second_attempt, C89_success_means_issued, C90_cacerts, C90_cacerts_none, C90_csrattrs, C90_csrattrs_refused, C91_default, C91_demanded, C91_enrolled, C91_same_channel, C92_handled, C92_header_too_large, C92_incomplete_body_false, C92_no_header, C92_refused, C93_keygen_partial, C93_mismatch, C93_short_key_false

## 4. Disagreements between code and property

Found while modelling and proving. "Witness" names the theorem with the concrete run.

### Memory safety

| where | what happens | witness |
|-------|--------------|---------|
| `est_base64_encode` | the terminating NUL is written behind the destination if the text fills it; reached by CoAP requests of 1, 2 or 4 bytes | C02 |
| `est_base64_decode` | a text of blanks only is read at index -1 | C57 |
| `est_server_coap.c` block handling | bound given to `memcpy_s` is the size of the data: payloads above 16384 bytes overrun the buffer | C09 |
| `get_coap_req` and enrolment events | `memzero_s` clears one byte behind the address array | C79 |
| `mg_parse_auth_hdr_digest` | headers of 384 characters and more are copied without terminating NUL to the stack | C60 |
| `est_tls_uid_auth` | short or malformed challengePassword attributes are read out of bounds; only a prefix is compared | C22 |
| `est_client_send_enroll_request_internal` | CSR texts above 4096 characters, or header plus CSR above 5120, overrun the heap buffer or send bytes never written; reachable from outside through the proxy | C61, C84 |
| `est_client_verifyhost` | an IP address entry longer than the host's address is read past the end | C11 |
| `HTNextField` | an unterminated comment moves the pointer behind the NUL | C64 |
| `multipart_parser.c` and key generation callbacks | five overruns of fixed arrays by long boundaries, headers and parts | C65 |
| `est_client_brski_parse_voucher` | more than 100 tokens read behind the array; a pinned certificate of 8192 characters writes one byte behind the stack buffer; a serial number shorter than the voucher's is read past its end | C36 |
| `ossl_verify_cb`, trust store loading, BRSKI connection | a subject of 255 bytes and more writes one byte behind a heap buffer | C77, C76 |
| CSR attribute walker in `est_server.c` | end-of-contents or indefinite length inside a definite construct is read behind the decoded CSR | C23 |
| `process_new_connection` | Content-Length INT64_MAX overflows a signed addition | C13 |
| `est_mg_handler` | a failed body read hands uninitialised bytes to the EST layer | C51 |
| `est_server_coap.c`, enhanced certificate authentication without callback | a NULL callback is called | model of `est_enroll_auth`, outcome `none` |
| `cur_max_ctx_array` in `est_proxy.c` | a global size for per-context tables: a second proxy context is accessed out of bounds | C40 |
| enrolment event, empty subject | an array never written is handed to the application | C79 |
| `est_enroll_status` without reason | NULL for `%s` | C75 |
| `est_mg_handler` | the buffer for the body is written to although `malloc` may have failed | C103 |
| `est_create_ah`, `mg_parse_auth_header` | the structure for the credentials is used although `malloc` may have failed | C103 |
| `est_parse_uri` (with uriparser) | the copy of the path segment is used although it may have failed | C103 |
| `est_server_all_csrattrs_present` | the OID list is freed twice if an allocation fails | C103 |
| `est_io_get_multipart_response`, key generation | when one of the two buffers cannot be allocated the other is freed twice; the parser and the header strings are written to although they could not be allocated | C102 |
| `est_io_get_multipart_response`, key generation | when both buffers cannot be allocated, success is reported with buffers never written | C102 model (read) |

### Security decisions

| where | what happens | witness |
|-------|--------------|---------|
| `est_enroll_auth` | a malformed Authorization header on re-enrolment or key generation leaves the client authorised although HTTP authentication is required | C19, C82 |
| `est_enroll_auth` | "HTTP authentication required" has no effect without a callback | C19 |
| `reset_per_request_attributes` | the user id of an earlier request on the connection is passed to the CA | C55 |
| `est_enhcd_cert_auth_get_mfg` | a negative verification result counts as verified | C48 |
| `est_server_all_csrattrs_present` | OIDs are compared by 127 characters of text | C23 |
| `get_coap_req` | port and address are joined without separator, so two peers can share a request record | C07 |
| `est_proxy.c` | the path segment of an earlier request of the same thread is used for a request without one | C41 |
| `est_proxy.c` over CoAP | the first CA certificates retrieved are handed out for every path segment | C88 |
| voucher parsing | member values and nested members are taken for member names | C36 |
| BRSKI status messages | reasons are not escaped, quotes inject members | C75 |
| BRSKI mode | `~a \| ~b` sets every bit of the verification mode; the callback is dropped | C74 |
| `est_client_provision_cert` | the new trust anchors never reach the TLS context | C67 |
| client authentication state | a 401 to a cacerts or csrattrs request, or to an earlier enrolment, makes the next enrolment volunteer credentials | C26, C27 |
| failed body read in the connection loop | the rest of the body is parsed as a new request | C13 |
| URI parsing | an encoded NUL or 272 characters cut the path; with uriparser further paths are accepted | C52, C53 |
| dispatcher | methods are compared by prefix (GETX, POSTX) | C47 |
| authentication event | Basic, Digest or token credentials are reported as validated enhanced certificate authentication | C81 |
| client check of CA certificates | taking CRLs out can make the base64 text longer (76-character lines become 64); nothing is copied but the longer length is noted, and `est_client_copy_cacerts` reads behind the heap buffer | C101 |
| client check of CA certificates | a negative result of `X509_verify_cert` counts as verified; a message without any certificate is accepted | C101 |

### Function

| where | what happens | witness |
|-------|--------------|---------|
| multipart response | keys shorter than 256 characters (P-256) and boundaries with a leading hyphen are refused by the client | C42 |
| client response reader | the 17th header counts as body; a body starting with a line end is refused | C28 |
| Basic header | the empty user name is refused | C33 |
| challenge parser | the value of an unknown parameter is read as a name | C66 |
| re-enrolment | failing to copy extensions reports success without a certificate | C29 |
| key generation | a failed check leaves certificate and key stored | C29 |
| voucher | `*cacert_len` is 0 after success; a second copy succeeds with zeros | C73 |
| setters | rejected calls of `est_server_init_csrattrs`, `est_client_set_server`, `set_auth`, `set_proxy` change the context; NULL arguments keep old values | C31, C70 |
| manufacturer list | registration with a full list reports success | C32 |
| CoAP start | port 0 is accepted, a failed start leaves the context "running"; a failed change of the session maximum loses the table | C71, C30 |
| Block1 | a late duplicate of the first block discards data (outside the hypotheses of C08) | C08 |
| csrattrs | attributes configured before proof of possession is enabled lack challengePassword; an indefinite-length SEQUENCE gets its end in the middle; more than 1013 bytes plus challengePassword refuse every CSR; malformed OIDs are searched inside | C86, C23, C87 |
| client csrattrs | the demand for proof of possession survives a 204 | C68 |
| events | the end event is missing for every request that fails | C80 |
| proxy key generation | Content-Length is 246 bytes short | C83 |
| proxy delay | kept in the shared context, may belong to another request | C85 |
| proxy | the decision to retry uses the downstream authentication mode | C39 |
| libcurl connection | IPv6 brackets are never added | C78 |
| cacerts callback returning no data | two responses are sent | C47 |
| key generation end to end | the client discards P-256 keys that the server sent (texts of less than 256 characters) | C93 |
| CoAP crts and att | the first response is kept for the session: later requests get the old certificates or attributes, and their Accept option is not looked at | C95 |
| CoAP att | a callback that returns an empty text (no attributes) makes the decoder read before its buffer; over HTTP it gives 204 | C95 |
| CoAP skg | requests of 1, 2 or 4 bytes overrun the heap buffer for the base64 text; the private key stays in the session's record after the last block | C96 |
| CoAP events | END without START, START twice without END | C97 |
| CoAP crts | the callback's buffer replaces `ctx->ca_certs`, which is freed by `est_destroy` later while the previous one is never freed (read, not modelled) | C95 |
| `est_destroy` after key generation | the private key received from the server is never released (nor zeroed) unless the application fetched it; the temporary copies of the key, the certificate and the part headers are never released | C102 |
| `est_client_disconnect` | the reference to the old session is lost whenever the server did not resume it | C102 |
| error returns of the client | `SSL_CTX`, `SSL` and `BIO`s are lost when the cipher list is refused or memory is short | C102 |
| `est_base64_decode` | both `BIO`s are lost for texts of a wrong length or wrong padding: every malformed Basic or token credential loses memory of the server before authentication, for ever | C103 |
| `mg_parse_auth_hdr_digest` | a parameter named again overwrites the pointer to its first value: memory lost before authentication | C103 |
| `est_handle_simple_enroll` | the CSR parsed for enhanced certificate authentication is lost when the client is refused; a buffer the CA callback stores with a retry or an error is lost | C103 |
| `est_handle_csr_attrs` | an empty buffer of the callback is lost when proof of possession is on | C103 |
| `est_server_init_csrattrs` | a refused call (text that does not decode) clears the attributes configured before, and with them their enforcement ends silently: CSRs without any attribute reach the CA although enforcement is on | C104 |
| `est_client_set_server` | neither the mode of authentication nor the TLS session is reset: after a re-enrolment or an enrolment with a CSR against a server that asked for a password, the next server named gets the password with the first request, unasked | C105 |
| `est_server_http.c` 1373-1375, 1439-1444 (`set_ssl_option`) | the trusted certificates and the DH parameters are moved out of the context at the first start, also if the start fails later on: after a restart, or a start repeated with a corrected setting, every client certificate is refused | C106 |
| `est_server.c` 3135-3139, `est_proxy.c` 2041-2044 | `mg_ctx` is not set to NULL after `mg_stop`: a second stop frees it again, and `est_server_handle_request` uses it | C106 |
| `est_server.c` 3105-3108, 4016, `est_server_coap.c` 3255 | a second start, a second call of `est_server_set_dh_parms` and a second CoAP start overwrite the pointer to the object that is there | C106 |
| `est_proxy.c` 2032-2046 | `est_proxy_stop` does nothing for a proxy that uses CoAP and returns success; the proxy goes on serving | C106 |
| `est_server_coap.c` 2728-2731 | libcoap is told to accept a missing CRL whatever `est_enable_crl` was called for | C106 |
| `est_client.c` 3107-3143 | `est_client_set_auth` with a password that is too long returns an error but has stored the new user name; it is then sent with the old password | C107 |
| `est_client.c` 986-1050 | a user name or password of the callback above 255 characters is replaced by the empty string and the request is sent; so is a token that is missing or above 512 characters | C107 |
| `est_client.c` 1056-1240 | Digest with a configured user name of 255 characters: the copy has no terminating 0 and is printed with `%s` | C107 |
| `est_client.c` 900-985 | the URI in a digest is a constant without the path segment (the server does not compare it) | C107 |
| `est_enhcd_cert_auth.c` 319-404, `est_server.c` 3614-3760 | CSR check for certificates of the local PKI: refused for every CSR when no manufacturer was ever registered, but after a *failed* registration the empty list is there, nothing is compared and every CSR passes | C109 |
| `est_enhcd_cert_auth.c` 347-404 | with manufacturers that use different subject fields, a local client's CSR passes when any one of them is repeated (a comment in the code says so) | C109 |
| `est_enhcd_cert_auth.c` 160-175 | only 0 from `X509_verify_cert` is a failure: a negative result (internal error) makes the client a device of that manufacturer | C109 |
| `est_server_http.c` 1746-1747, 1791-1796 | `est_server_handle_request` returns success when `SSL_new` fails and the connection is dropped | C106 |
| `est.c` 743-835 | `est_destroy` of a server that is running does not stop it: the service and its `SSL_CTX` are lost | C106 |
| `est_server.c` 3275-3284 | `est_server_init` with trust anchors that contain no certificate returns NULL but only `free`s the context: the new store and the cacerts answer are lost | C110 |
| `est.c` 511-581 | `est_get_certs_pkcs7` releases only the `PKCS7` on error although the signed part and the stack are not linked to it yet | C110 |
| `est.c` 438-470, 526-530 | a cacerts text with no certificate in it (e.g. only a CRL) is accepted and served as an empty message | C110 |
| `est_proxy.c` 2221-2222 | `malloc` of the table of upstream contexts is not checked: the proxy is returned and the first forwarded request uses NULL | C110 |
| `est_server.c` 2570-2573, 2657-2660 | the 200 answer to a status indication has neither the empty line that ends a header nor a length: it is not a complete HTTP response (libest's own pledge accepts it, because it reads until the connection is closed) | C112 |
| `est_server_coap.c` 417-463, `est.c` start_coap_req_timers | two requests of the same kind one after the other in a session: the second is timed from the start of the first, the gap between them is counted as handling time, and a warning is logged | C113 |
| `est.c` 2323-2679 | timers switched on while a session or request is in progress: stopping a timer that was never started prints a NULL or uninitialised tag with `%s` | C113 |
| `est_server_coap.c` 204, 217 | `src_ipstr` has 46 bytes and 47 are cleared: a zero byte is written behind it for every CoAP message, connect and close | (not modelled; same flaw as in `est_server.c` 4868, 4944) |
| `est_proxy.c` 463-466, 505-508 | when the handshake with the upstream server fails, the `SSL` object that `est_client_connect` leaves in `ssl_client` is not released: every forwarded enrolment loses one | C114 |
| `est_client.c` 5817-5853 | the early returns of `est_client_brski_send_get_voucher` leave the TLS connection and the socket open | C114 |
| `est_client.c` 5892-5896, 5930-5933 | the certificate missing on the second connection: the `SSL` object is released, the socket is not closed | C114 |
| `safe_str_stub.c` 309-314 | `strcpy_s` of a text as long as the buffer or longer returns success and leaves the buffer without a zero byte | C115 |
| `safe_str_stub.c` 108-113, 297-302 | `strcat_s` and `strncat_s` bound what is appended, not the result: with the true size of the destination they write behind it | C115 |
| `safe_str_stub.c` 88-99 | `strcasecmp_s` compares the character after the first `dmax` too | C115 |
| `safe_str_stub.c` 139-148 | `strisdigit_s` checks `dmax` but does not use it: an unterminated buffer is read past its end | C115 |
| `safe_str_stub.c` 544-577 | `strtok_s` does not move the context at the end of the text: with a length larger than the text, the last word is returned again, or an uninitialised context is used | C115 |
| `est_proxy.c` 1552-1985 | the reference that `SSL_get_peer_certificate` returns is never released: one reference for each request of a client with a certificate | C116 |
| `est_proxy.c` 452-522 | an `SSL` object and its `BIO` are lost when the handshake with the upstream server fails | C116, C114 |
| `est_proxy.c` 1900-1938 | certificate and private key of a key generation are not released when the response could not be written | C116 |
| `est_proxy.c` 663-675 | a CSR kept by the authentication is lost when the client is refused | C116 |
| `est_proxy.c` 759-763 | the `BUF_MEM` is lost when the buffer for the certificate cannot be allocated | C116 |
| `est_proxy.c` 1448-1500 | the attributes are lost when their check fails for want of memory | C116 |
| `est_proxy.c` 167-197, 711, 1037-1042, 2221 | results of `malloc` and `BUF_MEM_new` are used unchecked (table, body, certificate and key buffers) | C116 |
| `est_client.c` 452-475, 283-290, 1912-1914; `est_ossl_util.c` 416-419 | a PKCS7 of signed type without its (optional) content has `d.sign == NULL`; its certificates are read without a check, so a server can crash the client with its answer to a request for CA certificates or to a key generation | C102 |
| `est_proxy.c` 406, 1244 | the same crash of the proxy by its upstream server | C116 |
| `java/jni/client.c` 456-478, 852-865, 1270-1275 | `ReleaseByteArrayElements` with `JNI_COMMIT` keeps the copies of the arrays, those of private keys among them; every successful call leaves two to six of them | C117 |
| `java/jni/client.c` 106-123, 803-813, 1244-1254 | the text of the exception is `EST_ERR_STRINGS[new_cert_len]`: outside the table when the certificates are too long (index = their length) or cannot be converted (index −1) | C117 |
| `est_ossl_util.c` 416-419 | a PKCS7 without content crashes the virtual machine | C117 |
| `java/jni/client.c` 778-783 | when the library's renewal fails to copy the extensions and reports success (C102), the buffer is allocated with a length that was never set | C117 |
| `java/jni/client.c` 84, 233-251, 545, 803 | `max_buffer_length` is read twice without synchronisation; raised in between, the text is written beyond Java's array | C117 |
| `java/jni/client.c` 291-305 | `create_csr` passes null references to the JNI functions | C117 |
| `java/jni/client.c` 129-174 | the digest context is lost when `EVP_DigestSignInit` fails | C117 |
| `java/jni/client.c` 1152-1158 | when the SRP strings cannot be fetched, CA certificates are requested without SRP | C117 |
| `java/jni/client.c` 1125, 1200-1206 | a CA certificates request throws the undeclared `EnrollException` for null references and for SRP errors | C117 |
| `est_ossl_util.c` 352-471 | `BIO`s and buffers are lost when memory is short or when there is no PKCS7 or no text | C117 |
| `est.c` 1747-1788 | `est_get_attributes_helper` reports success without progress when no identifier is left, instead of an error and the number 0 as described | C118 |
| `example/client/estclient.c` 652-689 | the loop `while (der_len)` never ends for attributes that end with a value (accepted by the client from any server), adding an attribute to the request in each round | C118 |
| `example/client/estclient.c` 624-650 | "no content" and "not found" are let pass, but decoding nothing then fails, so that there is no enrolment with servers without attributes | C118 |
| `example/server/estserver.c` 939-970 with `est_server.c` 1961-2010 | With manual approval a server-side key generation is never served: the library makes a new key pair for each request, so the key of the request is never in the table; every attempt adds one more entry (`C119_keygen_never`) | C119 |
| `example/server/estserver.c` 380-389 | The entry removed from the search tree is never released, only the new one used for the search (`C119_tree_released_false`) | C119 |
| `example/server/estserver.c` 807-811, `est_server.c` 1641 | A certificate of 8192 bytes or more is reported with its length but without a buffer; the library writes from a pointer that was never set (`C119_large_answer_false`) | C119 |
| `example/server/estserver.c` 754-770 | The approval is tied to the public key only: another client that sends the same request takes it, and it is used up even if the CA then fails (`C119_same_client_false`, `C119_failure_uses_approval_false`) | C119 |
| `example/server/estserver.c` 755, 774 | The table is searched and changed before the mutex is taken; two requests at once race on it (not modelled) | C119 |
| `example/server/estserver.c` 655-663, 725 | `extract_sub_name` writes a zero at `name[len]`, one past the 64-byte buffer, for a subject of 64 characters or more (not modelled) | C119 |
| `src/est/est_client.c` 1101-1125, 1219-1229 | The user name and password for Basic (plain and encoded) and the encoded token stay on the stack (`C120_basic_frame_false`, `C120_token_frame_false`); the Digest branch clears its arrays | C120 |
| `src/est/est_client.c` 1402, 5239, 6263 | Requests for CSR attributes and the BRSKI requests are freed with the `Authorization` line in them; only the enrolment clears its buffer (`C120_other_requests_false`) | C120 |
| `src/est/est_client.c` 1691, 1870-1884, 2102, 2146 | Copies of a private key made by the server are freed without being cleared; the decoded copy is lost because `d2i_PrivateKey` moves the only pointer to it (`C120_client_key_false`) | C120 |
| `src/est/est.c` 743-836 | `est_destroy` neither clears the password nor frees (or clears) `server_gen_client_priv_key` (`C120_destroy_false`) | C120 |
| `src/est/est.c` 1801-1850 | Values longer than the limit are cleared only up to it (`C120_cleanse_false`) | C120 |
| `src/est/est_server_http.c` 965-991 | The decoded token stays on the stack (`C120_token_array_false`) | C120 |
| `src/est/est_server_coap.c` 1673-1702, 1731-1741 | If one of the first two blocks cannot be allocated, the key is neither cleared nor freed; a text that cannot be decoded to its end leaves the decoded part, because 0 bytes are cleared (`C120_coap_lost_false`, `C120_coap_partial_false`); the answer with the key stays in the client's node (`C120_coap_node_false`) | C120 |
| `src/est/est_proxy.c` 1138-1147, 1900-1908 | If the answer cannot be written, key and certificate are neither cleared nor freed (`C120_proxy_key_false`) | C120 |
| est_server_coap.c 1059-1060 | the block for the hexadecimal log text of an issued certificate is not checked: null pointer write when memory is short | C121 |
| est_server_coap.c 1807-1812 | the block for the CBOR array of a key generation is not checked: null pointer write | C121 |
| est_server_coap.c 997-1002, 1678-1683, 1708-1713 | certificate and (not overwritten) private key are lost when their copies cannot be allocated | C121 |
| est_server.c 268-269 with est.c 754-756 | in CoAP mode the buffer of the CA certificates callback replaces `ctx->ca_certs`: the configured ones are lost and `est_destroy` releases the application's buffer | C121 |
| `est_client.c` 5293-5322 | `verify_voucher` never releases the `PKCS7`; when the voucher is accepted it also overwrites the pointer to the received voucher: two blocks lost per voucher, accepted or refused (`C122_accepted_false`, `C122_refused_false`) | C122 |
| `est_client.c` 5316 | the content of the voucher is read as `d.data` although its type is not checked; for the content type of RFC 8366 (`id-ct-animaJSONVoucher`) that is an `ASN1_TYPE` (`C122_other_type_false`) | C122 |
| `est_client.c` 5616-5636, 5695 | `ossl_get_certs_pkcs7` releases the given `BIO` only after its first four steps; `est_brski_get_server_cert` loses the peer certificate when `BIO_new` fails | C122 |
| `est_client.c` 6001 | the result of `X509_NAME_oneline` is printed without a check (`C122_no_serial_false`) | C122 |
| `est_server_http.c` 476-497 | `push` takes a write of 0 bytes (a closed connection) for a short write and repeats it for ever (`C123_write_zero_false`) | C123 |
| `est_server_http.c` 523, 539, 551 | an interrupted poll counts as 250 ms, and the time-out is only looked at after a quiet poll (`C123_signals_false`) | C123 |
| `est_server_http.c` 570, 638 | the read time-out starts anew for every byte of a request, and does not cover `SSL_read` itself (`C123_slow_body_false`, `C123_incomplete_record_false`) | C123 |
| `est_server_http.c` 683, 690 | `mg_printf` compares with `>` instead of `>=`: a text of exactly 8192 bytes is sent with NUL as its last byte (`C123_printed_text_false`; no caller prints that much today) | C123 |
| `est_client_http.c` 1523-1532 | only the end of the connection ends a response: over a connection the server keeps open, a complete response is dropped with `EST_ERR_SSL_READ` (`C123_keep_alive_false`); a cut one is taken as complete (`C123_cut_connection_false`) | C123 |
| `est_client_http.c` 1491 | a signal during the poll is a read error (`C123_client_signal_false`) | C123 |
| `est_client_http.c` 1534 | `SSL_peek` on a full buffer waits without limit; a response of exactly `EST_CA_MAX` bytes is accepted without room for the NUL the header parser needs (`C123_full_buffer_false`) | C123 |
| `est_server.c` 2295-2308, `est_proxy.c` 1448-1469 | `csr_pop_present` is a scratch variable in the shared context: with two requests at the same time a client is not asked for challengePassword, or twice (`C124_not_asked_false`, `C124_asked_twice_false`) | C124 |
| `est_proxy.c` 106-214 | `get_client_ctx` searches, fills, sorts and replaces the table without a lock: a thread can get the client context of another one, two new threads take one entry, and the table can be released under a thread (`C124_proxy_other_context_false`, `C124_proxy_same_entry_false`, `C124_proxy_released_table_false`) | C124 |
| `estserver.c` 601-621, 755 | the list of waiting requests is used outside the mutex: one approval counts for two requests, and a waiting request can be lost (`C124_manual_twice_false`, `C124_manual_lost_false`) | C124 |
| `est_ossl_util.c` 322-330 | the text in the memory BIO is printed with `%s` and handed to the callback without a NUL behind it; without errors the pointer is NULL (`C125_not_terminated_false`, `C125_no_errors_false`) | C125 |
| `est_client.c` 575, 609, 617 | the result of `X509_get_subject_name`, a pointer to a structure, is printed with `%s`: undefined with level INFO for every CA certificate, with level WARN for one that does not verify (`C125_certificates_false`) | C125 |
| `est.c` 186-194, `est_locl.h` 640-655 | the backtrace of a message is logged even if the message is not; `backtrace_symbols` is not checked for NULL (`C125_backtrace_alone_false`, `C125_no_symbols_false`) | C125 |
| `example/util/simple_server.c` 64, 243, 276 | `stop_flag` is set and `full` is broadcast without the mutex: a worker between its test and its wait sleeps for ever and the accepting thread waits for it (`C126_lost_wakeup_false`) | C126 |
| `example/util/simple_server.c` 68-81, 116-120, 219-221 | connections accepted but not yet handed over when the server is told to stop are never closed (`C126_left_open_false`) | C126 |
| `example/util/simple_server.c` 383-385 | `start_simple_server` returns while workers still handle requests; `estserver.c` 2756 and `estproxy.c` 970 then release the context (`C126_use_after_return_false`) | C126 |
| `example/server/ossl_srv.c` 488-497, 1046, 1055-1057 | the results of writing the serial number, of `BIO_free` on the index and of writing the attributes are ignored; if both files are cut off a serial number is given out again (`C127_serials_unique_false`) | C127 |
| `example/server/ossl_srv.c` 1701-1709 | the subject is looked up before `row[DB_name]` is set: nothing is ever found, and after a certificate with an empty subject `strcmp` gets NULL (`C127_empty_subject_false`) | C127 |
| `example/server/ossl_srv.c` 2728-2747 | the name of a file that is never written is built without room for `.pem`: a serial number of 126 bytes overruns it (`C127_long_serial_false`) | C127 |
| `example/server/ossl_srv.c` 520-544 | between the two renames there is no serial file; a kill there, or two failing renames, end the authority until somebody repairs it by hand (`C127_stuck_false`) | C127 |
| `example/server/estserver.c` 1781-1788, 1228 | `brski_ca_certs` is copied without a NUL and then printed with `%s`: every voucher reads behind the block (`C128_voucher_false`) | C128 |
| `example/server/estserver.c` 1177, 1195, 1481, 1496, 1561, 1576 | values of the client's message are copied with unbounded `sprintf` into arrays of 33, 8193, 6 and 255 bytes; a reason of 255 bytes, the longest the library's client sends, is one too many (`C128_nonce_false`, `C128_status_false`, `C128_reason_false`) | C128 |
| `example/server/estserver.c` 1073-1075, 1177 | a message that fills the 100 tokens makes `dump` or the search read token 100 (`C128_print_false`, `C128_last_token_false`) | C128 |
| `example/server/estserver.c` 1177-1228 | the nonce is copied raw even if it is an object: a client gets a signed voucher whose first `serial-number` is another device's (`C128_forged_serial_false`) | C128 |
| `example/server/estserver.c` 1212-1222 | a peer without a certificate (HTTP authentication) is a NULL pointer here; a certificate without a serial number is answered with an `EST_ERROR` in place of a callback code (`C128_no_certificate_false`) | C128 |
| `example/server/estserver.c` 1242-1428 | without a MASA key the unsigned voucher is built but the result is a failure (`C128_unsigned_false`) | C128 |
| `example/server/estserver.c` 1155, 1458, 1538 | a request without Content-Length has a NULL body, which is printed with `%s` (`C128_no_body_false`) | C128 |
| `example/server/estserver.c` 1903-1906 | a Digest header of `estuser` without a `response` field is accepted by the parser and compared with `strncmp (…, NULL, 32)`: anyone can crash the server (`C129_no_response_false`) | C129 |
| `example/server/estserver.c` 1897-1908, `est_server_http.c` 1069-1112 | the nonce of a challenge is never compared with the one that comes back, nor is the count: a recorded header can be used for ever (`C129_replay_false`) | C129 |
| `example/server/estserver.c` 1881-1888 | with enhanced certificate authentication a client without certificate passes with a Basic header of the certificate's name and the fixed password `cisco`; `estuser` is refused (`C129_eca_header_false`) | C129 |
| `example/server/estserver.c` 1919-1922 | the arguments of `printf` are exchanged: the secret token is printed as the one received (`C129_token_label_false`) | C129 |
| `example/server/estserver.c` 645-665 | a subject of 64 characters or more writes a NUL behind `sn[64]`; an empty one is copied from NULL (`C129_subject_false`, `C129_no_subject_false`) | C129 |
| `example/server/estserver.c` 1949-1983 | the SRP record is not released when its parameters cannot be set (`C129_srp_leak_false`) | C129 |
| `example/server/estserver.c` 1018-1045 | the default attributes have a length that counts the NUL and no challengePassword; those of the environment have no NUL (`C129_csrattrs_default_false`, `C129_csrattrs_end_false`) | C129 |
| `example/client/estclient.c` `retry_enroll_delay` | a retry date more than two minutes away is announced as "terminating" but the request is repeated at once; with neither delay nor date too (`C130_waits_false`) | C130 |
| `example/client/estclient.c` `worker_thread`, the attempts | when a copy out of the library fails, the uninitialized buffer is written to the file; for a server-generated key no failure is reported (`C130_files_false`, `C130_key_lost_false`) | C130 |
| `example/client/estclient.c` `worker_thread` | the result of each operation overwrites that of the one before, so failures of all but the last are not reported (`C130_silent_false`) | C130 |
| `example/client/estclient.c` `regular_enroll_attempt` | `-z` and `--common-name` are ignored with `-a`; the request is never freed (`C130_pop_false`, `C130_common_name_false`, `C130_req_freed_false`) | C130 |
| `src/est/est_client.c` 4013 with `example/client/estclient.c` | copying the CA certificates marks the context as not initialized, so `-g -e` never enrols (`C130_ca_then_enrol_false`) | C130 |
| `example/client/estclient.c` file names | names are cut at 254 characters, so with a long directory the certificate is stored over the key (`C130_names_false`) | C130 |
| `example/client/estclient.c` `auth_credentials_token_cb` | an empty token gives success and a null pointer (`C130_token_false`) | C130 |
| `example/server/estserver.c` 1242-1411 | a voucher of more than 16384 bytes is cut to the array but signed with its whole length (`C128_long_voucher_false`) | C128 |
| `estclient.c` 1157-1161 | `--trustanchor` with a file whose name begins with `no` (`northern-ca.pem`) turns the check of the server's certificate off; a later `--trustanchor` does not turn it on again | C131 |
| `estclient.c` 1349 | `reenroll & csr_file[0]` is a bitwise "and": re-enrolment with a CSR file is refused only if its name begins with an odd byte, otherwise the CSR is silently not used | C131 |
| `estclient.c` 1188-1195 | `SOCKS4A` is taken for `SOCKS4`, `SOCKS5_HOSTNAME` for `SOCKS5` | C131 |
| `estclient.c` 1227, 1261-1282 | names copied with `strncpy` over the whole array have no end when they fill it (server and file names of 255 bytes, common names of 64) | C131 |
| `estclient.c` 1465-1484 | `-q` without `-e`, `-x` or `-y` makes no key and then fails to read one from a file without a name | C131 |
| `utils.c` 177-190 | with an empty password from `--keypass_arg` the loop that writes the new key does not end | C131 |
| `ossl_srv.c` 1186, 1282-1293 | `mval` is never freed, and it is not in the check for failed allocations at 1194 | C132 |
| `ossl_srv.c` 1262-1280 | a `+` after an element that is skipped joins the next one to the wrong relative name | C132 |
| `ossl_srv.c` 1227 | a last element without a value makes the name invalid, although elements without a value are meant to be skipped (1270) | C132 |
| `getopt_long.c` 190-200 | an abbreviation of several long names is taken as the first of them, and an empty name as the first of all | C133 |
| `getopt_long.c` 202-208 | `--name=value` for an option without an argument is accepted and the value ignored | C133 |
| `getopt_long.c` 106-107 | a minus sign among letters ends the options without a report | C133 |
| `getopt_long.c` 202-207 | an optional argument is taken from the next word, even if that is an option | C133 |
| `estclient.c` 1119, 175 | `--keypass_stdin` is declared with a required argument, the usage says none: the next option is swallowed | C133 |
| `est_client_http.c` 453-460 | a time such as `1:2:3` moves the pointer by 8 whatever was matched, behind the end of the text | C134 |
| `est_client_http.c` 1357-1372 | a date that was parsed is stored, but the result stays `EST_ERR_INVALID_RETRY_VALUE`; dates that are too late or too early are stored as 0x7fffffff and 0 | C134 |
| `est_client_http.c` 555 | `SIZEOF_TIME_T` is defined nowhere, so dates after 2037 are always too late | C134 |
| `est_client_http.c` 235-260 | the zone letters have the wrong sign | C134 |
| `est_client_http.c` 527 | the year 70 with two digits is 2070 | C134 |
| `est_client_http.c` 453, 499-516, 574-577 | 31 February, day 00, negative minutes and seconds are accepted | C134 |
| `est_client_http.c` 589 | a time whose low 32 bits are all ones is taken for an error and gets no offset | C134 |
| `est_client.c` 4208, 4225-4250 | `est_client_enable_srp` turns SRP on and replaces the ciphers before it knows whether the user is accepted: a refused user leaves a context that cannot connect any more | C135 |
| `est_client.c` 5044-5046 | the mode `~SSL_VERIFY_PEER \| ~SSL_VERIFY_FAIL_IF_NO_PEER_CERT` has all bits set: verification stays on, against the comment | C76, C135 |
| `est_server_coap.c` 2909-2915, 2920 | an address of another family ends the loop with success, and without DTLS the loop does nothing: the server runs without an endpoint, and the first request uses a NULL endpoint (`est_server_http.c` 1624) | C136 |
| `est_server_http.c` 1624 | the descriptor of a request replaces the bound socket of the endpoint, which is never closed; the application's descriptor is closed at the end instead | C136 |
| `est_server_coap.c` 3255 | a second start overwrites the context of libcoap without releasing it | C136 |
| `example/util/utils.c` 70, 82, 89 | a file of 2^31-1 bytes overflows `len + 1`, one of more than 4 GB is read as its beginning with success, an empty one is an error whose block is left | C137 |
| `example/util/utils.c` 116 | a write cut short is not noticed | C137 |
| `example/util/utils.c` 175-190 | the result of generating an RSA key is not looked at: if it fails and a passphrase is asked for, the loop never ends | C137 |
| `example/util/utils.c` 209-245 | the EC group is never released, the key not after the early errors | C137 |
| `example/util/utils.c` 309-312 | the BIO is not released if the key file cannot be read | C137 |
| `estproxy.c` 862 | The answer of `est_proxy_set_server` is not looked at: without `-p` (port 0) the proxy serves without an upstream server | C139 |
| `estproxy.c` 461, 553 | The letter `b` is handled but not in the list of letters: `-b` ends with the usage | C139 |
| `estproxy.c` 115, 473, 240-242 | A token of 512 bytes fills its array without a NUL; each request with a token then reads beyond it | C139 |
| `estproxy.c` 68, 569, 862 | A server name of 32 bytes or more fills its array without a NUL and is read beyond it (libest allows 254); the same holds for `-c`, `-k`, `-r`, `--srp` and the names of fields | C139 |
| `estproxy.c` 176, 566 | HA1 is fixed for the realm `estrealm`; with another realm (`-r`) or none Digest users with the right password are turned away | C139 |
| `estproxy.c` 434 | `--enhcd_cert_truststore` is accepted and ignored | C139 |
| `estproxy.c` 224 | A Digest header without `response` (or one for which no digest is computed) is compared through a null pointer | C139 |
| `estproxy.c` 345-349 | A user's record is not released when OpenSSL refuses its values | C139 |
| est_enhcd_cert_auth.c lines 337-348, 380-397 | Subject fields are compared as C strings: what follows a zero byte or the 256th byte is ignored, and names written as BMPString all compare as the empty name (which passes for certificates of the local PKI); the user name given to the application is cut off at the same place | C140 |
| est_enhcd_cert_auth.c lines 201-217 | Only the first field of a kind is compared; a CSR may carry further values of it and passes the check | C140 |
| est_server_coap.c lines 2718-2774 | Over CoAP revocation is checked, but a missing list and an expired list are both accepted | C136 |
| est.c lines 334-344, 407 | A negative length passes the check of est_read_x509_request (and est_load_key has none); OpenSSL then measures the data up to a zero byte, so the limit does not hold and memory behind the object may be read | C141 |
