{"id": "C01", "title": "Base64 encode/decode round trip", "statement": "Whenever est_base64_encode (single line mode) fits its destination and the text it wrote is handed to est_base64_decode with a destination at least as large as the original data, est_base64_decode returns exactly the original length and the destination holds exactly the original bytes.", "quantifier": "every byte string of at least one byte, of any length, and every destination size that is large enough", "why_tests_cant": "Lengths and byte values are unbounded; tests sample a few CSRs, the three padding classes times all byte values times all sizes cannot be enumerated.", "anchors": ["src/est/est.c:est_base64_encode", "src/est/est.c:est_base64_decode", "src/est/est.c:est_base64_str_analyze"]}
{"id": "C02", "title": "Base64 encode never writes outside the caller's buffer", "statement": "est_base64_encode(src,n,dst,max,nl=0) writes only dst[0..max-1] for every n and max it accepts, and a return value r>0 means that dst holds r characters followed by a NUL.", "quantifier": "every source length and every destination size for which the call is not rejected", "why_tests_cant": "The guard is an arithmetic approximation; the failing sizes lie on a boundary (n close to 3*max/4) which ordinary tests with generous buffers never hit.", "anchors": ["src/est/est.c:est_base64_encode", "src/est/est_server_coap.c:est_coap_sen_handler"]}
{"id": "C03", "title": "CoAP server-keygen payload is exact CBOR", "statement": "The multipart payload that est_coap_skg_handler places in the response buffer parses, with an independent CBOR reader, as the 4-element array [284, key bytes, 281, certificate bytes]; nothing is left over and the payload length equals the length the handler computed.", "quantifier": "every private key and certificate byte string whose combined framing passes the handler's size check", "why_tests_cant": "The header width switches at 24, 256 and 65536 bytes; correctness at all lengths, including the boundaries, needs all lengths.", "anchors": ["src/est/est_server_coap.c:est_coap_skg_handler", "src/est/est_server_coap.c:makeCborBytestring", "src/est/est_server_coap.c:writeCborBytestring"]}
{"id": "C04", "title": "DTLS retransmission timer doubles and is capped", "statement": "Starting from a configured handshake timeout of t seconds the k-th value returned by the DTLS timer callback is min(60 s, t*2^k) and never exceeds 60 seconds; it never decreases.", "quantifier": "every permitted initial timeout and every number of retransmissions", "why_tests_cant": "The number of retransmissions is unbounded; a test sees a handful.", "anchors": ["src/est/est_server_coap.c:est_coap_dtls_timer_callback", "src/est/est_server.c:est_server_set_dtls_handshake_timeout"]}
{"id": "C05", "title": "CoAP request table stays well formed", "statement": "After any history of CoAP session lookups/creations and removals, the request table has its original number of slots, is sorted by key, holds no key twice, and coap_req_cnt equals the number of used slots; a lookup of a new session when all slots are used fails without changing any slot.", "quantifier": "every capacity and every finite sequence of get_coap_req/remove_coap_req calls with any keys", "why_tests_cant": "The property ranges over all interleavings of session creation and removal.", "anchors": ["src/est/est_server_coap.c:get_coap_req", "src/est/est_server_coap.c:remove_coap_req", "src/est/est_server_coap.c:coap_bsearch_compare"]}
{"id": "C06", "title": "CoAP request table behaves as a map keyed by session (isolation)", "statement": "get_coap_req for a session returns the request record last stored for that session (a fresh one if none is live), and creating, using or removing one session never changes the record that any other session gets.", "quantifier": "every finite history of operations over any set of sessions with distinct keys", "why_tests_cant": "Interference between sessions depends on positions after sorting; only an argument over all histories rules it out.", "anchors": ["src/est/est_server_coap.c:get_coap_req", "src/est/est_server_coap.c:remove_coap_req"]}
{"id": "C07", "title": "Distinct CoAP peers never share a request record", "statement": "Two remote endpoints that differ in address or UDP port are given different request-table keys.", "quantifier": "every pair of (address text, port) endpoints", "why_tests_cant": "A collision needs a specific pair of address and port; random testing practically never finds it.", "anchors": ["src/est/est_server_coap.c:get_coap_req"]}
{"id": "C08", "title": "Block1 reassembly yields exactly the client's payload", "statement": "If the blocks of a payload arrive in order, each possibly repeated any number of times, the request buffer at the last block equals the payload; a block beyond the expected offset is answered 4.08 and leaves the buffer unchanged.", "quantifier": "every payload, every block size exponent and every number of duplicate deliveries", "why_tests_cant": "Number of blocks, duplications and gaps is unbounded.", "anchors": ["src/est/est_server_coap.c:est_coap_sen_handler"]}
{"id": "C09", "title": "CoAP request buffer is never overrun", "statement": "The accumulated Block1 payload never exceeds the request node's buffer of COAP_REQ_NODE_BUF_LEN_MAX bytes.", "quantifier": "every sequence of blocks a client can send", "why_tests_cant": "Overrun needs more than 16 KiB of blocks in one session; tests use small CSRs.", "anchors": ["src/est/est_server_coap.c:est_coap_sen_handler", "src/est/est_server_coap.c:est_coap_skg_handler"]}
{"id": "C10", "title": "Wildcard host name matching is confined to one left-most label", "statement": "A certificate name pattern matches a host name only if they are equal ignoring ASCII case, or the pattern's left-most label contains '*', the pattern has at least two dots, the left-most label is not an xn-- label, the host is not an IPv4 literal, everything after the first dot agrees ignoring case, and the star stands for a run of characters (at least one overall) inside the first label of the host.", "quantifier": "every pattern string and every host string", "why_tests_cant": "Strings are unbounded; security failures come from unusual patterns.", "anchors": ["src/est/est_client.c:est_client_hostmatch", "src/est/est_client.c:est_client_cert_hostcheck", "src/est/est_client.c:est_client_raw_equal"]}
{"id": "C11", "title": "A subjectAltName of type DNS or IP overrides the common name", "statement": "FQDN verification succeeds only if some DNS SAN matches the host, or some IP SAN equals the host address, or the certificate has no DNS/IP SAN at all and the most specific CN, containing no NUL, matches; a certificate carrying DNS or IP SANs none of which match is rejected whatever its CN is.", "quantifier": "every list of SAN entries, every CN list and every host", "why_tests_cant": "Lists are unbounded and adversarially chosen.", "anchors": ["src/est/est_client.c:est_client_verifyhost"]}
{"id": "C12", "title": "HTTP request framing is stable under how bytes arrive", "statement": "get_request_len returns the length of the shortest prefix that ends with an empty line; once it returns a positive or negative answer for a buffer, receiving more bytes never changes the answer, and any positive answer is at most the number of bytes buffered.", "quantifier": "every byte buffer and every continuation of it", "why_tests_cant": "The way TCP splits the stream is arbitrary.", "anchors": ["src/est/est_server_http.c:get_request_len", "src/est/est_server_http.c:read_request"]}
{"id": "C13", "title": "HTTP connection buffer bookkeeping is never out of range", "statement": "In the connection loop, after every request, 0 <= data_len <= buf_size, the discarded count never exceeds data_len, and the bytes kept are exactly the unread bytes that follow the request's header and body.", "quantifier": "every sequence of requests on a connection with any header lengths, declared content lengths and pipelined data", "why_tests_cant": "Pipelining and declared lengths are unbounded and attacker controlled.", "anchors": ["src/est/est_server_http.c:process_new_connection"]}
{"id": "C14", "title": "The request body reader never returns more than Content-Length bytes", "statement": "The total number of bytes mg_read hands out for one request never exceeds the declared content length, they come first from the bytes already buffered after the header and then from the socket, in order, and nothing that belongs to a following pipelined request is handed out.", "quantifier": "every content length, buffered amount and socket delivery pattern and every sequence of reads", "why_tests_cant": "Delivery patterns are unbounded.", "anchors": ["src/est/est_server_http.c:mg_read", "src/est/est_server_http.c:pull"]}
{"id": "C15", "title": "URL decoding inverts percent-encoding", "statement": "url_decode of a percent-encoded string returns the original bytes, never produces more bytes than it consumed, never writes past dst_len, and returns -1 exactly when the destination was too small.", "quantifier": "every byte string and every destination size", "why_tests_cant": "All byte values at all positions and all destination sizes.", "anchors": ["src/est/est_server_http.c:url_decode"]}
{"id": "C16", "title": "Request paths are normalised", "statement": "After remove_double_dots_and_double_slashes the path contains no two adjacent separators and no separator followed by '..', it never grows, applying it again changes nothing, and paths that already satisfy this are unchanged.", "quantifier": "every string", "why_tests_cant": "Path traversal filters fail on unusual nestings; tests only try well-known ones.", "anchors": ["src/est/est_server_http.c:remove_double_dots_and_double_slashes"]}
{"id": "C17", "title": "Only the exact well-known EST paths reach a handler", "statement": "In a build without path segment support est_parse_uri yields an operation only for the exact /.well-known/est/<operation> path of that operation and reports an invalid path (answered 404) for every other string; distinct operations have distinct paths.", "quantifier": "every URI string", "why_tests_cant": "All strings; prefix comparisons could accept extensions that tests do not try.", "anchors": ["src/est/est.c:est_parse_uri", "src/est/est.c:est_parse_operation"]}
{"id": "C18", "title": "Keep-alive decision", "statement": "The server keeps a connection open exactly when it was not told to close, the response status is neither 202 nor >= 400, keep-alives are enabled and the client asked for keep-alive (Connection: keep-alive in any letter case, or no Connection header with HTTP/1.1).", "quantifier": "every request header list, version string and response status", "why_tests_cant": "Header lists are unbounded.", "anchors": ["src/est/est_server_http.c:should_keep_alive", "src/est/est_server_http.c:get_header"]}
{"id": "C19", "title": "No enrolment without authentication", "statement": "For every enrolment request, est_enroll_auth answers authorised only if the TLS client certificate was verified, or SRP was used, or the HTTP credentials were accepted by the application's callback; and if HTTP authentication is required and the application registered an HTTP authentication callback then a certificate alone never suffices.", "quantifier": "every server configuration, every TLS peer state, every Authorization header outcome and every request type", "why_tests_cant": "The decision has many independent inputs and an error path that is specific to re-enrol.", "anchors": ["src/est/est_server.c:est_enroll_auth", "src/est/est_server.c:check_for_TLS_cert_auth", "src/est/est_server.c:handle_enhanced_cert_auth"]}
{"id": "C20", "title": "The CA is reached only by fully checked CSRs", "statement": "The application's enrolment callback is invoked only if the request type is valid, the content type is application/pkcs10, the client was authorised, the CSR parsed, its signature verified, proof of possession held or the peer is a registration authority, and all enforced CSR attributes are present.", "quantifier": "every request, configuration and outcome of the cryptographic checks", "why_tests_cant": "The order of nine gates and their early exits; tests cover single failures, not all combinations.", "anchors": ["src/est/est_server.c:est_handle_simple_enroll", "src/est/est_server.c:est_check_cmcRA", "src/est/est_server.c:est_tls_uid_auth"]}
{"id": "C21", "title": "A certificate response is sent exactly when the CA produced a certificate", "statement": "est_handle_simple_enroll sends a 200 response with the callback's bytes iff the callback was invoked, returned EST_ERR_NONE and a positive length; a retry result sends a Retry-After response; everything else is reported as an error and no certificate leaves the server.", "quantifier": "every callback result and request", "why_tests_cant": "All combinations of callback return codes and lengths.", "anchors": ["src/est/est_server.c:est_handle_simple_enroll"]}
{"id": "C22", "title": "Proof of possession accepts only the connection's own TLS unique id", "statement": "est_tls_uid_auth accepts a CSR carrying a challengePassword only if that password is equal to the TLS unique id of the connection, and a CSR without a challengePassword only if PoP is not enforced.", "quantifier": "every configuration, challenge password and TLS unique id", "why_tests_cant": "Passwords that extend the id are unlikely in tests.", "anchors": ["src/est/est_server.c:est_tls_uid_auth", "src/est/est.c:est_get_tls_uid"]}
{"id": "C23", "title": "Enforced CSR attributes must all be present", "statement": "When enforcement is on, a CSR is accepted by est_server_all_csrattrs_present exactly when every attribute OID the server demands occurs in the OIDs of the CSR; otherwise the request is refused with EST_ERR_CSR_ATTR_MISSING.", "quantifier": "every list of demanded OIDs and every list of OIDs in the CSR", "why_tests_cant": "Lists are unbounded.", "anchors": ["src/est/est_server.c:est_server_all_csrattrs_present", "src/est/est_server.c:est_handle_simple_enroll"]}
{"id": "C24", "title": "Server error, HTTP status and client error agree", "statement": "For every error for which the protocol defines a status (bad request, not found, auth failure, retry, locked, no content) the status the server sends for it makes the client report the corresponding error, and no error status is ever reported to the application as success.", "quantifier": "every EST_ERROR value and every HTTP status code", "why_tests_cant": "The two tables live in different files and are only compared by this composition.", "anchors": ["src/est/est_server.c:est_send_http_error", "src/est/est_client_http.c:est_io_parse_response_status_code", "src/est/est_client_http.c:est_io_get_response_internal"]}
{"id": "C25", "title": "Retry-After survives the trip from server to client", "statement": "The Retry-After value the server writes is the value the client reports from est_client_copy_retry_after, for every retry period the server API can set; and the value is handed out once.", "quantifier": "every configured retry period and every other header list around it", "why_tests_cant": "All periods and header arrangements.", "anchors": ["src/est/est_server.c:est_server_send_http_retry_after", "src/est/est_client_http.c:est_io_parse_http_retry_after_resp", "src/est/est_client.c:est_client_copy_retry_after"]}
{"id": "C26", "title": "Client HTTP authentication is retried at most once and only after a challenge", "statement": "An enrolment sends at most two requests; the second is sent only if the first was answered 401 with a usable challenge, and credentials appear in a request only if the server asked for them earlier in this operation or the Basic hint was enabled.", "quantifier": "every sequence of server responses and client configurations", "why_tests_cant": "Server behaviour is arbitrary, including repeated challenges.", "anchors": ["src/est/est_client.c:est_client_enroll_internal", "src/est/est_client_http.c:est_io_get_response_internal"]}
{"id": "C27", "title": "Authentication state does not leak into the next operation", "statement": "After an enrolment, re-enrolment, CSR enrolment or server-keygen operation returns successfully, the client context is back in the no-authentication mode, so the next operation starts without credentials.", "quantifier": "every operation and every sequence of server responses", "why_tests_cant": "It needs a second operation against a different challenge after a challenged first one.", "anchors": ["src/est/est_client.c:est_client_enroll_internal", "src/est/est_client.c:est_client_reenroll", "src/est/est_client.c:est_client_enroll_csr_internal"]}
{"id": "C28", "title": "The client accepts a response body only if it is complete and typed", "statement": "For operations other than server keygen, est_io_get_response hands a body to the caller only if the status was 200, a matching Content-Type was present, and the Content-Length was between 0 and EST_CA_MAX and equal to the number of bytes received after the headers.", "quantifier": "every response byte string and every operation", "why_tests_cant": "Truncated, over-long and mislabelled responses are unbounded.", "anchors": ["src/est/est_client_http.c:est_io_get_response_internal", "src/est/est_client_http.c:est_io_check_http_hdrs"]}
{"id": "C29", "title": "Enrolled certificate and server-generated key are handed out exactly once", "statement": "est_client_copy_enrolled_cert returns the bytes of the last successful enrolment, a second call reports that there is no certificate, and the internal copy is cleared; between enrolments no other operation changes what it returns.", "quantifier": "every sequence of enrol and copy operations", "why_tests_cant": "Sequences are unbounded.", "anchors": ["src/est/est_client.c:est_client_copy_enrolled_cert", "src/est/est_client.c:est_client_enroll_internal"]}
{"id": "C30", "title": "Configuration values always stay in their documented range", "statement": "After any sequence of calls to the server configuration setters with any arguments, the retry period, BRSKI retry period, read timeout, DTLS handshake timeout, MTU, session maximum and authentication mode are within their documented ranges (or at their defaults), and a rejected call changes nothing.", "quantifier": "every finite sequence of setter calls with any integer arguments", "why_tests_cant": "Argument values and call sequences are unbounded.", "anchors": ["src/est/est_server.c:est_server_set_retry_period", "src/est/est_server.c:est_server_set_read_timeout", "src/est/est_server.c:est_set_brski_retry_period", "src/est/est_server.c:est_server_set_dtls_handshake_timeout", "src/est/est_server.c:est_server_set_auth_mode"]}
{"id": "C31", "title": "Rejected reconfiguration leaves the context unchanged", "statement": "A call of est_client_set_server, est_server_init_csrattrs, est_server_enable_enhanced_cert_auth or est_client_set_auth that returns an error leaves the previous configuration in force.", "quantifier": "every context state and every argument", "why_tests_cant": "Requires comparing state before and after on every error path.", "anchors": ["src/est/est_client.c:est_client_set_server", "src/est/est_server.c:est_server_init_csrattrs", "src/est/est_server.c:est_server_enable_enhanced_cert_auth", "src/est/est_client.c:est_client_set_uid_pw"]}
{"id": "C32", "title": "Manufacturer list keeps every registration it acknowledges", "statement": "Whenever est_server_enhanced_cert_auth_add_mfg_info returns success the manufacturer is in the list (at most 4 entries) and all earlier entries are unchanged.", "quantifier": "every sequence of registrations", "why_tests_cant": "The failing history is longer than the capacity.", "anchors": ["src/est/est_enhcd_cert_auth.c:est_load_enhcd_cert_auth_manufacturer", "src/est/est_enhcd_cert_auth.c:get_next_mfg_info_ind"]}
{"id": "C33", "title": "HTTP Basic credentials survive client encoding and server parsing", "statement": "For every user name without a colon and every password within the length limits, the Authorization header built by the client makes the server's parser produce exactly that user and password.", "quantifier": "every user name without ':' and every password, of any length within the limits", "why_tests_cant": "All character values and lengths, including passwords containing colons.", "anchors": ["src/est/est_client.c:est_client_add_auth_hdr", "src/est/est_server_http.c:mg_parse_auth_hdr_basic"]}
{"id": "C34", "title": "Digest authentication agrees on both sides", "statement": "The response value the client computes for a digest challenge equals the value the server computes from the same header fields when the passwords agree, for every hash function; with a collision-free hash, agreement implies that the passwords agree.", "quantifier": "every user, realm, password, nonce and uri, and every hash function", "why_tests_cant": "Quantifies over hash functions and all strings.", "anchors": ["src/est/est_client.c:est_client_generate_auth_digest", "src/est/est_server.c:est_server_generate_auth_digest"]}
{"id": "C35", "title": "JSON tokens stay inside the voucher text and the token array", "statement": "jsmn_parse never writes outside the token array, every token it reports satisfies 0 <= start <= end <= len when parsing succeeds, the returned count is the number of tokens used, and toknext never exceeds the array size.", "quantifier": "every byte string and every token array size", "why_tests_cant": "The voucher is attacker supplied and unbounded.", "anchors": ["src/est/jsmn.c:jsmn_parse", "src/est/jsmn.c:jsmn_parse_string", "src/est/jsmn.c:jsmn_parse_primitive"]}
{"id": "C36", "title": "A voucher is accepted only for this device and this request", "statement": "est_client_brski_parse_voucher succeeds only if the voucher's serial-number equals the client certificate's serial number, the nonce, if present, equals the nonce of the request, and a pinned-domain-cert is present.", "quantifier": "every voucher text", "why_tests_cant": "Voucher contents are arbitrary.", "anchors": ["src/est/est_client.c:est_client_brski_parse_voucher", "src/est/est_client.c:est_client_retrieve_token_from_voucher"]}
{"id": "C37", "title": "Server certificate verification can be overridden only in three cases", "statement": "The client's certificate verify callback turns an OpenSSL verification failure into acceptance only for untrusted certificate, self-signed certificate in chain (both only through the application's callback) or missing CRL; every other error stays a failure and a success stays a success.", "quantifier": "every error code, preverify result and callback answer", "why_tests_cant": "All error codes, of which tests trigger few.", "anchors": ["src/est/est_client.c:cert_verify_cb"]}
{"id": "C38", "title": "The BRSKI pledge limits a registrar's delay", "statement": "est_client_brski_get_voucher sleeps at most once, at most 60 seconds, and issues at most two voucher exchanges whatever the registrar answers.", "quantifier": "every sequence of registrar answers and Retry-After values", "why_tests_cant": "Registrar answers are arbitrary.", "anchors": ["src/est/est_client.c:est_client_brski_get_voucher"]}
{"id": "C39", "title": "Proxy forwards upstream results faithfully", "statement": "For every upstream outcome that the client code handles without one of the memory errors of C61, C65 and C84, the proxy sends the client at most one certificate, only when upstream produced one; upstream bad-request, not-found, locked, no-content and retry results are passed through unchanged, authentication failures become 401, unreachable servers 504, protocol failures 502 and everything else 500; the upstream request is tried at most twice.", "quantifier": "every upstream result sequence", "why_tests_cant": "All error values and challenge sequences.", "anchors": ["src/est/est_proxy.c:est_proxy_handle_simple_enroll", "src/est/est_server.c:est_send_http_error"]}
{"id": "C40", "title": "Each proxy thread keeps its own upstream context", "statement": "get_client_ctx returns the context it created for the calling thread on every later call, different threads get different contexts, and growing the table loses no entry.", "quantifier": "every number of threads and every interleaving of lookups", "why_tests_cant": "Growth happens only after 100+ threads; all orders of thread ids matter.", "anchors": ["src/est/est_proxy.c:get_client_ctx", "src/est/est_proxy.c:bsearch_compare"]}
{"id": "C41", "title": "The proxy forwards a request under the path segment of that request", "statement": "The path segment used upstream for a request is the client's own segment, or the proxy's configured one if the client gave none, or none.", "quantifier": "every history of requests handled by one thread", "why_tests_cant": "Depends on the previous request of the same thread.", "anchors": ["src/est/est_proxy.c:est_proxy_handle_simple_enroll", "src/est/est_proxy.c:est_proxy_set_path_segment"]}
{"id": "C42", "title": "Server keygen multipart response is understood by the client", "statement": "The multipart/mixed response body the server writes for a key and certificate is split by the client into exactly that key and that certificate.", "quantifier": "every key and certificate base64 text", "why_tests_cant": "All lengths and alignments of the parser's state machine.", "anchors": ["src/est/multipart_parser.c:multipart_parser_execute", "src/est/est_client_http.c:parse_and_split_keygen_rsp", "src/est/est_server.c:est_handle_server_keygen"]}
{"id": "C43", "title": "Client replaces any stale proof of possession", "statement": "In est_client_enroll_pkcs10 the CSR that is signed and sent contains exactly one challengePassword, equal to the connection's TLS unique id, if PoP is required or forced, and none otherwise; all other attributes are kept in order.", "quantifier": "every list of attributes in the given CSR", "why_tests_cant": "Any number of stale attributes at any positions.", "anchors": ["src/est/est_client.c:est_client_clear_csr_pop", "src/est/est_client.c:est_client_enroll_pkcs10"]}
{"id": "C44", "title": "CoAP option checks", "statement": "est_coap_check_option accepts exactly requests whose option is present once with the expected content format (an absent Accept option is also accepted), and otherwise answers with the documented error code.", "quantifier": "every multiset of option values", "why_tests_cant": "Any number of repeated options.", "anchors": ["src/est/est_server_coap.c:est_coap_check_option"]}
{"id": "C45", "title": "Expected response content type belongs to the operation", "statement": "For every client operation the entry of est_op_map that is consulted carries that operation and its response content type.", "quantifier": "every EST_OPERATION value", "why_tests_cant": "A table/enum mismatch only shows with a conforming registrar.", "anchors": ["src/est/est_client_http.c:est_op_map", "src/est/est_client_http.c:est_io_check_http_hdrs"]}
{"id": "C46", "title": "Header tokeniser splits exactly at delimiters", "statement": "The server's header parser yields the header list that was written: parsing the serialisation of any list of at most 64 well-formed headers gives back that list, and never more than 64 headers; look-up is by first case-insensitive match.", "quantifier": "every list of headers", "why_tests_cant": "Header counts, names and values are unbounded.", "anchors": ["src/est/est_server_http.c:parse_http_headers", "src/est/est.c:skip_quoted", "src/est/est_server_http.c:get_header"]}
{"id": "C47", "title": "Method and media type gate of the HTTP dispatcher", "statement": "est_http_request hands a request to a handler only if operation and method fit (cacerts and csrattrs: GET; all others: POST), a content type is present for enrolments, and each request gets exactly one final response.", "quantifier": "every method, URI, content type and configuration", "why_tests_cant": "All combinations; prefix comparison of methods.", "anchors": ["src/est/est_server.c:est_http_request"]}
{"id": "C48", "title": "Manufacturer lookup is by verified chain", "statement": "est_enhcd_cert_auth_get_mfg reports a manufacturer only if the peer certificate verifies against that manufacturer's trust store, and reports the first such manufacturer.", "quantifier": "every registered manufacturer list and verification outcome", "why_tests_cant": "Includes the error outcome of the verifier, which tests cannot provoke.", "anchors": ["src/est/est_enhcd_cert_auth.c:est_enhcd_cert_auth_get_mfg"]}
{"id": "C49", "title": "Client CA-certificate life cycle", "statement": "After est_client_copy_cacerts succeeds, every enrolment operation is refused until the context is initialised again, and est_client_get_cacerts followed by copy returns exactly the bytes received.", "quantifier": "every sequence of client operations", "why_tests_cant": "Sequences are unbounded.", "anchors": ["src/est/est_client.c:est_client_copy_cacerts", "src/est/est_client.c:est_client_get_cacerts"]}
{"id": "C50", "title": "Hex conversion is invertible", "statement": "est_hex_to_str writes exactly 2*len lower-case hex digits and a NUL, and different byte strings of equal length give different texts.", "quantifier": "every byte string", "why_tests_cant": "All byte strings of all lengths.", "anchors": ["src/est/est.c:est_hex_to_str"]}
{"id": "C51", "title": "The body handed to the EST layer is what the client sent", "statement": "Whenever the EST request handler is called with a body of n bytes, these n bytes are exactly the n bytes that followed the request header on the connection.", "quantifier": "every request, every content length and every pattern of socket deliveries and read failures", "why_tests_cant": "Failures in the middle of a body, at every position, are hard to provoke and leave uninitialised memory that often looks harmless.", "anchors": ["src/est/est_server_http.c:est_mg_handler", "src/est/est_server_http.c:mg_read"]}
{"id": "C52", "title": "Only exact EST paths reach a handler, seen from the request line", "statement": "A request is dispatched to an EST operation only if the percent-decoded path of its request line is exactly the path of that operation.", "quantifier": "every request URI text", "why_tests_cant": "All byte strings, including encoded NULs and over-long paths.", "anchors": ["src/est/est_server_http.c:handle_request", "src/est/est.c:est_parse_uri"]}
{"id": "C53", "title": "Path segments: every request path gets a defined and exact result", "statement": "In a build with path segment support est_parse_uri accepts a path only if it is /.well-known/est/<operation> or /.well-known/est/<segment>/<operation> (operation in any letter case), reports exactly that segment and operation, and answers every other path with an error.", "quantifier": "every request path", "why_tests_cant": "All strings; the crashing ones are special shapes that functional tests do not contain.", "anchors": ["src/est/est.c:est_parse_uri", "src/est/est.c:est_parse_operation", "src/est/est.c:est_strcasecmp_s"]}
{"id": "C54", "title": "Server-side key generation: who gets a key and what the CA signs", "statement": "In a server key generation request the CA callback is reached only by authorised clients, with a CSR that is the client's CSR carrying the freshly generated key and signed with it, after all checks; and no byte of the private key leaves the server unless the CA returned success and a certificate for this request.", "quantifier": "every configuration, connection, header, CSR, callback result and network behaviour", "why_tests_cant": "All combinations of failing steps and write failures.", "anchors": ["src/est/est_server.c:est_handle_server_keygen", "src/est/est_server.c:est_enroll_auth"]}
{"id": "C55", "title": "The user id given to the CA belongs to this request", "statement": "The user id handed to the enrolment callback over HTTP is empty or is the user name of credentials that the application accepted in the same request.", "quantifier": "every sequence of requests on a connection", "why_tests_cant": "Depends on the order of requests on a persistent connection and on malformed headers.", "anchors": ["src/est/est_server.c:est_handle_simple_enroll", "src/est/est_server_http.c:reset_per_request_attributes", "src/est/est_server_http.c:mg_parse_auth_header"]}
{"id": "C56", "title": "BRSKI callbacks see only authorised clients", "statement": "The voucher request, voucher status and enrol status callbacks are called only for authorised clients, with the documented content type and exactly the body of the request; a voucher leaves the server only if the callback returned success, and is what the callback returned.", "quantifier": "every configuration, connection, header, content type, callback result and network behaviour", "why_tests_cant": "All combinations of authentication state, content type and failing writes.", "anchors": ["src/est/est_server.c:est_brski_handle_voucher_req", "src/est/est_server.c:est_brski_handle_voucher_status", "src/est/est_server.c:est_brski_handle_enroll_status", "src/est/est_server.c:est_brski_auth"]}
{"id": "C57", "title": "Base64 decoding stays inside its buffers", "statement": "est_base64_decode(src,dst,size) reads only the string src and writes only dst[0..size-1]; a non-zero return value is the number of bytes written, and a text whose number of non-blank characters is not a multiple of four gives 0.", "quantifier": "every string and every destination size", "why_tests_cant": "Blank and empty strings read one byte in front of the string, which rarely crashes.", "anchors": ["src/est/est.c:est_base64_decode", "src/est/est.c:est_base64_str_analyze"]}
{"id": "C58", "title": "A CoAP certificate answer belongs to the session's own request", "statement": "A certificate sent to a CoAP session is the decoding of what the EST layer returned for exactly the bytes that session sent as its current request, whatever other sessions send in between; a new request is never answered with the response of an earlier one.", "quantifier": "every interleaving of messages of any number of sessions, every block size and every EST layer behaviour", "why_tests_cant": "Depends on the interleaving of sessions in a shared table that is re-sorted during use.", "anchors": ["src/est/est_server_coap.c:est_coap_sen_handler", "src/est/est_server_coap.c:get_coap_req", "src/est/est_server_coap.c:reinit_coap_req"]}
{"id": "C59", "title": "CoAP enrolment errors map to the documented response codes", "statement": "A failed enrolment is answered without content, with the CoAP code that belongs to the error, and the record of the session is left as it was.", "quantifier": "every EST error code and every request of at least five bytes", "why_tests_cant": "Ninety-five error codes, most of which need a failing CA or upstream server.", "anchors": ["src/est/est_server_coap.c:est_coap_sen_handler"]}
{"id": "C60", "title": "The server reads a Digest header of any length inside its buffer", "statement": "mg_parse_auth_header reads and writes only its own buffers for every Authorization header of a Digest mode server; a header that does not fit is refused.", "quantifier": "every Authorization header value", "why_tests_cant": "The copy of a header of 384 or more characters is left without terminator, which shows only through what happens to lie behind it on the stack.", "anchors": ["src/est/est_server_http.c:mg_parse_auth_hdr_digest", "src/est/est_server_http.c:mg_parse_auth_header"]}
{"id": "C61", "title": "The client sends the whole request or reports an error", "statement": "An enrolment request puts exactly the header, an empty line, the CSR text and a line end on the wire, or reports an error; nothing outside the request buffer is read or written and no unwritten memory is sent.", "quantifier": "every header text and every CSR text", "why_tests_cant": "The buffer is too small only for large keys or long names; overruns of a few bytes of heap go unnoticed.", "anchors": ["src/est/est_client.c:est_client_send_enroll_request_internal", "src/est/est_client.c:est_client_build_enroll_header", "src/est/est_client.c:est_client_build_server_keygen_header"]}
{"id": "C62", "title": "The server understands the client's request", "statement": "The enrolment request the client sends is framed by the server as that request followed by the CSR, is parsed into the same method, path, version and headers, leads to the same operation, and carries the credentials the client was given.", "quantifier": "every server name, port, path segment, CSR and credentials that fit", "why_tests_cant": "An end-to-end statement over all configurations of two independent programs.", "anchors": ["src/est/est_client.c:est_client_build_enroll_header", "src/est/est_client.c:est_client_add_auth_hdr", "src/est/est_server_http.c:parse_http_request", "src/est/est_server_http.c:get_request_len"]}
{"id": "C63", "title": "The client takes over the server's challenge", "statement": "A 401 response of the server makes a client that has not yet sent credentials take over exactly the configured mode, realm and nonce, so that its next answer is one the server accepts for the right password; a client that has sent credentials gives up instead.", "quantifier": "every mode, every realm without quotes, every time and every client state", "why_tests_cant": "Writer and reader are two different programs; the reader has special cases for quotes, comments and lists.", "anchors": ["src/est/est_server_http.c:mg_send_authorization_request", "src/est/est_client_http.c:est_io_parse_auth_tokens", "src/est/est_client_http.c:HTNextField", "src/est/est_client_http.c:est_io_parse_http_auth_request"]}
{"id": "C64", "title": "A challenge of any form is read inside the received text", "statement": "Reading a WWW-Authenticate header never leaves the string that was received, whatever the server sends.", "quantifier": "every header value", "why_tests_cant": "Needs an unterminated comment; the read behind the string is invisible unless the memory behind it is unmapped.", "anchors": ["src/est/est_client_http.c:HTNextField", "src/est/est_client_http.c:est_io_parse_auth_tokens"]}
{"id": "C65", "title": "Key generation responses of any form are read inside the parser's arrays", "statement": "For every response to a server key generation request, the client reads only the received bytes and writes only inside its own structures; a key and a certificate taken from it are pieces of the received bytes within the size limits.", "quantifier": "all received byte strings", "why_tests_cant": "the state machine has sixteen states and unlimited input; arrays are left only by special boundaries and header counts", "anchors": ["src/est/multipart_parser.c:multipart_parser_execute", "src/est/est_client_http.c:parse_and_split_keygen_rsp", "src/est/est_client_http.c:part_data_cb"]}
{"id": "C66", "title": "Challenge parameters are understood in any order", "statement": "The parameters of a WWW-Authenticate challenge (realm, nonce, algorithm, error, error_description, qop) are understood in any order, with any mix of separators, quoted or not, and with names of any case; parameters the client does not know are ignored.", "quantifier": "every list of parameters, every separator, every value", "why_tests_cant": "Parameter lists are unbounded and their order is up to the server; a wrong reading shows up only as an authentication failure later on.", "anchors": ["src/est/est_client_http.c:est_io_parse_auth_tokens", "src/est/est_client_http.c:HTNextField"]}
{"id": "C67", "title": "Trust anchors of the connections", "statement": "Every request a client context sends goes to a server that was verified against the trust anchors configured with est_client_init, or, after est_client_provision_cert has fetched new CA certificates, against those.", "quantifier": "For all sequences of API calls on a client context and all server behaviours.", "why_tests_cant": "Needs a second CA and a server that changes its chain in the middle of an operation; tests use one CA for everything.", "anchors": ["src/est/est_client.c:est_client_provision_cert", "src/est/est_client.c:est_client_init_ssl_ctx", "src/est/est.c:est_load_trusted_certs"]}
{"id": "C68", "title": "Proof of possession follows the server's attributes", "statement": "After est_client_get_csrattrs the requests of the client contain a challengePassword exactly if the attributes in the last answer of the server demand one, or the application forced it.", "quantifier": "For all answers of the server (attributes, no attributes, errors) and all following enrolments.", "why_tests_cant": "Depends on what earlier calls on the same context left behind; tests use a fresh context.", "anchors": ["src/est/est_client.c:est_client_get_csrattrs", "src/est/est_client.c:est_client_enroll_pkcs10", "src/est/est_client.c:est_client_enroll_cn"]}
{"id": "C69", "title": "Client path segments are understood by the server", "statement": "est_client_set_server accepts a path segment exactly when uriparser accepts it, it is a single segment of at most 128 characters without query or fragment and it is not the name of an operation; and for every accepted segment and every operation the server's est_parse_uri reads the resulting path /.well-known/est/segment/operation back as that operation and that segment. est_parse_path_seg never follows a NULL pointer.", "quantifier": "all texts, all operations, builds with and without BRSKI, any behaviour of uriparser's syntax check", "why_tests_cant": "The segment is free text; tests use a handful of names. The client's and the server's parser are different functions and must agree on every text, including ones with slashes, query characters or operation names in other case.", "anchors": ["src/est/est_client.c:est_client_set_server", "src/est/est.c:est_parse_path_seg", "src/est/est.c:est_parse_uri"]}
{"id": "C70", "title": "A successful client setter puts exactly its arguments in force", "statement": "After est_client_set_server, est_client_set_auth or est_client_set_proxy returns success the context holds exactly the given server name, port, path segment, user id, password, certificate, key and proxy settings, and what was not given is no longer in force; after any sequence of setter calls all strings are terminated inside their arrays and all settings are in range.", "quantifier": "all argument values (including NULL, empty and oversized texts) and all sequences of calls", "why_tests_cant": "Whether an old value survives depends on the order of calls and on which arguments are NULL; string termination depends on exact lengths at the array bound.", "anchors": ["src/est/est_client.c:est_client_set_server", "src/est/est_client.c:est_client_set_uid_pw", "src/est/est_client.c:est_client_set_auth", "src/est/est_client.c:est_client_set_proxy", "src/est/est_client.c:est_client_set_read_timeout", "src/est/est_client.c:est_client_set_sign_digest", "src/est/est_proxy.c:est_proxy_set_server"]}
{"id": "C71", "title": "The CoAP session table is sized by the configuration and fixed while running", "statement": "The CoAP request table always has exactly as many entries as the configured session maximum, and while the CoAP server is running neither the table nor its size can be changed by configuration calls; before it runs the maximum can be set.", "quantifier": "all sequences of configuration and start calls, start successes and failures", "why_tests_cant": "The lock depends on the history of start calls and the port number given; tests start the server once on one port.", "anchors": ["src/est/est_server_coap.c:est_server_coap_init_start", "src/est/est_server_coap.c:est_server_set_dtls_session_max", "src/est/est_server_coap.c:coap_init_req_array"]}
{"id": "C72", "title": "Every JSON text is tokenised exactly", "statement": "For every JSON text with at most num_tokens values and keys, whatever its nesting, white space and escapes, jsmn_parse consumes the whole text and reports exactly the values and keys of the text in the order of the text, with their places, kinds and element counts.", "quantifier": "all JSON texts given by the grammar (objects, arrays, strings with escapes, numbers and literals, white space anywhere), all token array sizes", "why_tests_cant": "The nesting is unbounded and the parser keeps its place by searching the token array backwards, so a wrong search shows only for particular combinations of nesting and commas.", "anchors": ["src/est/jsmn.c:jsmn_parse", "src/est/jsmn.c:jsmn_parse_string", "src/est/jsmn.c:jsmn_parse_primitive"]}
{"id": "C73", "title": "The CA certificate of the voucher is reported and handed out once", "statement": "After est_client_brski_get_voucher succeeds, *cacert_len is the length of the CA certificate the voucher carries, est_client_brski_copy_cacert hands out exactly that certificate, and a second copy is refused.", "quantifier": "all vouchers, registrars, client contexts", "why_tests_cant": "needs a registrar with a signing MASA; the tests only compare return codes of the first copy", "anchors": ["src/est/est_client.c:est_client_brski_get_voucher", "src/est/est_client.c:est_client_brski_parse_voucher", "src/est/est_client.c:est_client_brski_copy_cacert"]}
{"id": "C74", "title": "BRSKI mode switches off the registrar's TLS verification", "statement": "est_client_set_brski_mode is accepted once per client context, a refused call changes nothing, and after it TLS connections are made without verification of the peer's certificate chain.", "quantifier": "all client contexts", "why_tests_cant": "the effect is on a bit mask inside the TLS context that no API reports", "anchors": ["src/est/est_client.c:est_client_set_brski_mode"]}
{"id": "C75", "title": "BRSKI bodies are JSON objects with exactly the given members", "statement": "The body of a voucher request, of a voucher status and of an enrolment status indication is a JSON object that carries exactly the documented members with the values the application gave, for every reason text and every certificate.", "quantifier": "all reasons of up to 255 characters, all nonces, times, certificates, key identifiers", "why_tests_cant": "reasons that need escaping, missing reasons and second attempts with another certificate form an unbounded set no test list covers", "anchors": ["src/est/est_client.c:est_client_brski_send_voucher_status", "src/est/est_client.c:est_client_brski_send_enroll_status", "src/est/est_client.c:est_client_brski_build_voucher_req", "src/est/est_client.c:est_brski_get_server_cert"]}
{"id": "C76", "title": "A client connection comes about only to the verified, rightly named server", "statement": "est_client_connect succeeds exactly when one of the server's addresses accepts a connection, every fault found in the server's certificate chain was excused (approved by the application, or a missing CRL), and the certificate names the configured server (with SRP no certificate is needed); the first accepting address is used and every failure yields the error of the step that failed.", "quantifier": "all address lists, certificate chains, verification results, certificates, client contexts", "why_tests_cant": "the combinations of partly reachable addresses, verification notes and certificate names cannot be staged with test servers", "anchors": ["src/est/est_client.c:est_client_connect", "src/est/est_client_proxy.c:tcw_direct_connect", "src/est/est_client.c:cert_verify_cb"]}
{"id": "C77", "title": "Subject texts stay inside their buffers", "statement": "Extracting the subject of any certificate or CSR writes only inside the buffer given and leaves the first bytes of the subject as a C string, in every place of the library that does so.", "quantifier": "all subjects, all callers", "why_tests_cant": "subjects of 255 bytes and more in failing certificates are not in the test suite, and one byte written past a heap block goes unnoticed", "anchors": ["src/est/est_ossl_util.c:est_get_subj_fld_from_cert", "src/est/est_ossl_util.c:ossl_verify_cb", "src/est/est_ossl_util.c:ossl_init_cert_store_from_raw"]}
{"id": "C78", "title": "A configured proxy is asked for the configured server, and never bypassed", "statement": "With a proxy configured the client asks the proxy for exactly the configured host and port, IPv6 addresses in brackets, gives the proxy the configured credentials with the configured methods, and never connects directly.", "quantifier": "all hosts, ports, proxy settings", "why_tests_cant": "needs proxies of every kind and IPv6 names; the URL given to libcurl is not observable", "anchors": ["src/est/est_client_proxy.c:tcw_connect", "src/est/est_client_proxy.c:tcw_curl_connect"]}
{"id": "C79", "title": "Enrolment events tell the application who asked for what", "statement": "The enrolment request and response events carry the subjects of the client certificate and of the CSR, the peer's address and port, the path segment and kind of the request, for every readable request, and touch no memory but their own.", "quantifier": "all subjects, addresses, segments", "why_tests_cant": "subjectless CSRs and a stray byte on the stack are not checked by tests", "anchors": ["src/est/est_server.c:est_invoke_enroll_req_event_cb", "src/est/est_server.c:est_invoke_enroll_rsp_event_cb", "src/est/est_server.c:est_invoke_enroll_get_ip_port", "src/est/est_server.c:est_invoke_endpoint_req_event_cb"]}
{"id": "C80", "title": "Endpoint and enrolment events come in pairs", "statement": "Every request over TLS is announced by exactly one start event, first, and exactly one end event, last; an enrolment handed to its handler is announced before and reported after with the handler's result, and nothing else is announced as an enrolment.", "quantifier": "all requests, server configurations", "why_tests_cant": "tests register the callbacks but do not count them over all failing requests", "anchors": ["src/est/est_server.c:est_http_request"]}
{"id": "C81", "title": "The authentication event reports the decision and the enhanced certificate check truthfully", "statement": "The authentication result event carries the authentication state that decides the request, and reports enhanced certificate authentication as validated exactly when it was performed for the client's certificate and succeeded.", "quantifier": "all clients, credentials, configurations", "why_tests_cant": "tests look at the event only for enrolments with enhanced certificate authentication switched on", "anchors": ["src/est/est_server.c:est_enroll_auth", "src/est/est_server.c:est_invoke_enroll_auth_result_event_cb"]}
{"id": "C82", "title": "The proxy forwards only authenticated, checked requests, and unchanged", "statement": "Whatever the configuration, connection and request: if the proxy sends a request for a certificate upstream, then the client asked for this operation with POST and content type application/pkcs10, it is authenticated (verified certificate, SRP login or credentials the application accepted in this request), its CSR was parsed, carries a public key and a valid signature, and proof of possession held; and the body sent upstream is the client's body byte for byte.", "quantifier": "for every configuration, connection, credentials, request, state of the proxy and behaviour of the upstream server", "why_tests_cant": "The proxy is the only one that can authenticate the client: one path to est_client_send_enroll_request_internal around a check turns it into an open relay to the CA; tests try a few failures per check.", "anchors": ["est_proxy.c:est_proxy_handle_simple_enroll", "est_proxy.c:est_proxy_handle_server_keygen", "est_proxy.c:est_proxy_http_request"]}
{"id": "C83", "title": "Every response declares exactly the length of its body", "statement": "The Content-Length of every response with a certificate, CA certificates, CSR attributes, a generated key or an error is the number of bytes that follow the header, so that any HTTP client reads the whole answer and nothing is left over in the connection.", "quantifier": "for every body and both for the server and the proxy", "why_tests_cant": "libest's own client ignores the length and reads until the connection is closed, so tests with it never notice a wrong one.", "anchors": ["est_server.c:est_handle_cacerts", "est_server.c:est_handle_server_keygen", "est_proxy.c:est_proxy_propagate_pkcs7", "est_proxy.c:est_proxy_propagate_keygen_rsp", "est_server_http.c:mg_send_http_error"]}
{"id": "C84", "title": "A client of the proxy cannot make it access memory outside its buffers", "statement": "A request that the proxy's server part accepts (bodies up to 8192 bytes) is forwarded without reading or writing outside the buffer for the upstream request and without sending bytes never written.", "quantifier": "for every request body up to EST_MAX_CONTENT_LEN", "why_tests_cant": "Needs a valid CSR larger than 4096 characters, which test suites with ordinary keys never produce.", "anchors": ["est_proxy.c:est_proxy_send_enroll_request", "est_client.c:est_client_send_enroll_request_internal"]}
{"id": "C85", "title": "The delay a client of the proxy is told belongs to its own request", "statement": "If a client of the proxy is told to come back later, the delay is the one the upstream server gave in answer to this client's request, also when the proxy handles several requests at the same time.", "quantifier": "for every request, upstream answer and interleaving of requests", "why_tests_cant": "Only shows when two requests are deferred at the same time with different delays.", "anchors": ["est_proxy.c:est_proxy_handle_simple_enroll", "est_server.c:est_server_send_http_retry_after"]}
{"id": "C86", "title": "A server that checks proof of possession asks for it", "statement": "Whenever proof of possession is enabled, the CSR attributes the server hands out are the configured ones, in their order, followed by challengePassword unless it is among them already; attributes that were accepted without challengePassword are accepted with it.", "quantifier": "every SEQUENCE of configured attributes (stored or supplied by a callback), every order of configuration calls", "why_tests_cant": "The DER length field changes form at 128 and 256 bytes of contents and the limits differ by 11 bytes; the order of the configuration calls matters.", "anchors": ["src/est/est.c:est_add_challengePassword", "src/est/est_server.c:est_server_init_csrattrs", "src/est/est_server.c:est_handle_csr_attrs"]}
{"id": "C87", "title": "CSR attributes are accepted within the documented size and challengePassword is found exactly", "statement": "A base64 text of CSR attributes is accepted exactly when it carries ASN.1 values of 2 to 1024 bytes (1035 with challengePassword), challengePassword is reported exactly when it is one of the OIDs, and no byte behind the data is read for any text.", "quantifier": "every text and every list of ASN.1 values", "why_tests_cant": "Nesting depth, lengths and contents are unbounded; the reader must stay inside the buffer for arbitrary bytes.", "anchors": ["src/est/est.c:est_asn1_sanity_test", "src/est/est.c:est_asn1_parse_attributes"]}
{"id": "C88", "title": "The proxy hands out the upstream server's CA certificates and CSR attributes", "statement": "A proxy without CA certificates of its own answers a request for CA certificates with exactly the certificates that the upstream server sent and that passed the verification; a request for CSR attributes with exactly the upstream server's attributes, with challengePassword added if the proxy checks proof of possession and it is not among them (or asking for challengePassword alone if the server has none). Every upstream error is answered with the status that belongs to it and no body. A proxy with its own CA certificates hands those out and asks nobody.", "quantifier": "for every configuration, state, connection, upstream behaviour and attribute list", "why_tests_cant": "Tests use one upstream server with fixed attributes; what is handed out depends on the cached certificates, the proof-of-possession switch and the attribute encoding.", "anchors": ["src/est/est_proxy.c:est_proxy_handle_cacerts", "src/est/est_proxy.c:est_proxy_handle_csr_attrs", "src/est/est_proxy.c:est_proxy_retrieve_cacerts"]}
{"id": "C89", "title": "Enrolment works end to end", "statement": "As long as the request header fits the client's buffer (1026 bytes), CSR and certificate have at most 4096 characters, and the server's realm has no quotes: when the libest client's enrolment request reaches a libest server over HTTPS, in whatever pieces its bytes arrive, the client function's result is exactly what the server decided. A client the server authenticates (by certificate, or by the user name and password it sends when challenged) and whose CSR passes the checks gets, byte for byte, the certificate that the application's CA callback returned for that CSR, path segment and user name. If the callback asks to retry, the client reports the server's retry period. If the server refuses, the client reports an error and stores no certificate. Conversely the client reports success only if the CA callback issued the stored certificate for the client's CSR after the server had authenticated the client and checked the CSR.", "quantifier": "for every client and server configuration, CSR, path segment, credentials, CA callback, and every split of the request into received pieces, within the sizes named", "why_tests_cant": "Tests run one client against one server on a loopback connection with short names; the whole path crosses the client's request builder, the server's reader, parser, dispatcher, authentication, enrolment handler and response writer, and the client's response parser.", "anchors": ["src/est/est_client.c:est_client_enroll_req", "src/est/est_client_http.c:est_io_get_response", "src/est/est_server_http.c:process_new_connection", "src/est/est_server_http.c:est_mg_handler", "src/est/est_server.c:est_http_request", "src/est/est_server.c:est_handle_simple_enroll"]}
{"id": "C90", "title": "CA certificates and CSR attributes reach the client's application as the server's application gave them", "statement": "When the libest client asks a libest server over HTTP for the CA certificates, what the client verifies and stores is byte for byte the data that the server's application provided (through its callback if it has one, else the chain loaded at initialisation); if the server has none, the client reports no content and keeps its earlier chain. When the client asks for CSR attributes, its application gets byte for byte the text that the server decided to send, provided that the client's own check of it passes, and the client notes whether challengePassword is in it; when the server has no attributes or refuses those of its application, the client reports the matching error, hands out nothing and keeps its earlier notion of whether proof of possession is required.", "quantifier": "every client configuration and state, every request that fits the client's buffers, every division of the request into network reads, every server configuration, path prefix, credential header, chain of certificates and CSR attribute text up to the client's limits", "why_tests_cant": "Tests run one client against one server over a loop-back connection with one chain and one attribute list; neither the divisions of the request, nor chains and attribute lists chosen by an application can be enumerated, and an end-to-end test cannot tell which of the two ends altered the data.", "anchors": ["src/est/est_client.c:est_client_get_cacerts", "src/est/est_client.c:est_client_get_csrattrs", "src/est/est_client.c:est_client_send_cacerts_request", "src/est/est_server.c:est_handle_cacerts", "src/est/est_server.c:est_handle_csr_attrs", "src/est/est_server_http.c:process_new_connection", "src/est/est_client_http.c:est_io_get_response"]}
{"id": "C91", "title": "Proof of possession binds the certificate to the client's own TLS session, end to end", "statement": "Within the sizes of C89 and for session ids of the same length at both ends (as TLS gives them): when the server has proof of possession on, the libest client that first asks for CSR attributes learns that challengePassword is wanted, puts the id of its current TLS session into the CSR of its enrolment, and gets its certificate if the server's end of the session has that id; a client that leaves the id out gets none. If an enrolment with the id in it succeeds and the client is no registration authority, the id at the server's end of the connection equals that at the client's end, so nobody relayed the request between two TLS sessions.", "quantifier": "every attribute list that carries challengePassword, every session id, client configuration, CSR, division into network reads, CA and application callback", "why_tests_cant": "An end-to-end test sees one honest session, in which both ids agree by construction; relayed sessions need an attacker in the middle, and a missing or stale id only shows with a server that demands it on the second or a later connection.", "anchors": ["src/est/est_client.c:est_client_get_csrattrs", "src/est/est_client.c:populate_x509_request", "src/est/est_client.c:est_client_enroll", "src/est/est_server.c:est_tls_uid_auth", "src/est/est_server.c:est_handle_simple_enroll", "src/est/est.c:est_is_challengePassword_present"]}
{"id": "C92", "title": "Only complete, well-formed requests reach the EST handlers; all others are refused without effect", "statement": "Whatever bytes a client sends and however they arrive, callbacks of the application run only if the bytes are a complete header of allowed characters within the buffer, which parses to a request for a path in HTTP 1.0 or 1.1 with a content length between 0 and 8192, and exactly that many body bytes were read; and then the effects are those of the dispatcher for just that header and body. A header that does not parse, a path that does not begin with a slash or a negative length is answered with 400, another HTTP version with 505, a larger length or a header of more than 16384 bytes with 413, each in one response that announces its true length and the end of the connection; a header that never becomes complete is not answered.", "quantifier": "every sequence of bytes, every division into network reads, with and without errors of the connection, every server configuration", "why_tests_cant": "Malformed requests form an infinite set, the code reads them in pieces whose sizes depend on the network, and a fuzzer sees crashes but not an effect that should not have happened.", "anchors": ["src/est/est_server_http.c:process_new_connection", "src/est/est_server_http.c:read_request", "src/est/est_server_http.c:parse_http_message", "src/est/est_server_http.c:is_valid_uri", "src/est/est_server_http.c:est_mg_handler", "src/est/est_server_http.c:mg_send_http_error"]}
{"id": "C93", "title": "Server-side key generation end to end", "statement": "When a client calls the function for an enrolment with server-side key generation, its connection leads to a libest server that verified its TLS certificate, and the server's application makes a key and has the re-signed CSR turned into a certificate, then the client's call succeeds and the certificate and the private key it can copy out afterwards are byte for byte the texts that the server's application handed out, each exactly once; if the certificate does not belong to the key the call reports it.", "quantifier": "for every client context, every CSR, every path segment, every way the bytes arrive, every key text and every certificate text, every server application", "why_tests_cant": "A test runs one key type and one certificate; the multipart response is produced and parsed by code on two sides with limits of its own (boundary, minimum lengths), which only shows for particular key types", "anchors": ["src/est/est_client.c:est_client_server_keygen_enroll", "src/est/est_client.c:est_client_copy_server_generated_key", "src/est/est_server.c:est_handle_server_keygen", "src/est/est_client_http.c:est_io_get_response"]}
{"id": "C94", "title": "CoAP sessions do not influence each other", "statement": "What a CoAP session with its own peer address is answered, and which events are announced for it, depends only on its own messages since it was connected (and on what the EST layer returned for them), not on the messages, connects and disconnects of any other session interleaved with them, as long as not more sessions are active than the configured maximum. A session that already has a record is served even if the table is full; one that has none is refused with 5.00 and changes nothing.", "quantifier": "every interleaving of messages to any of the five resources, connects and disconnects of any number of sessions, every table capacity, every block splitting", "why_tests_cant": "All sessions share one sorted table whose records are re-used; interference needs a particular order of several peers' messages, and the number of interleavings is unbounded.", "anchors": ["src/est/est_server_coap.c:est_coap_crts_handler", "src/est/est_server_coap.c:est_coap_att_handler", "src/est/est_server_coap.c:est_coap_sen_handler", "src/est/est_server_coap.c:est_coap_skg_handler", "src/est/est_server_coap.c:get_coap_req", "src/est/est_server_coap.c:remove_coap_req", "src/est/est_server_coap.c:est_coap_event_handler"]}
{"id": "C95", "title": "CA certificates and CSR attributes over CoAP are exactly the server's", "statement": "A GET of crts or att over CoAP is answered with the decoded bytes of what the application's callback returned or else of what the server has stored, with the right Content-Format, in blocks that concatenate to those bytes; these are the same bytes that the server would send over HTTP. If there is nothing to send or an error occurs the documented code is sent with no content; more than 16384 bytes are refused. A client certificate is not needed, TLS is. Later requests get what the server has by then.", "quantifier": "every certificate or attribute data, every callback result, every block size, every state of the session", "why_tests_cant": "The data goes through base64 decoding, a per-session cache and libcoap's block splitting; a test with one small certificate sees one block and a fresh session.", "anchors": ["src/est/est_server_coap.c:est_coap_crts_handler", "src/est/est_server_coap.c:est_coap_att_handler", "src/est/est_server.c:est_handle_cacerts", "src/est/est_server.c:est_handle_csr_attrs"]}
{"id": "C96", "title": "Key generation over CoAP returns exactly this request's key and certificate", "statement": "A complete key generation request over CoAP is given to the EST layer as the base64 text of exactly the bytes received; if it returns a key and a certificate the response is 2.04 with a CBOR array of the two content formats and the decoded key and certificate, and nothing else, or 5.00 if that has more than 16384 bytes. Without a client certificate or with another content format or Accept value nothing is generated; an error gives the documented code and neither key nor certificate leaves the server.", "quantifier": "every request, key, certificate, block division, session state and result of the key generation", "why_tests_cant": "Lengths of key and certificate select different CBOR heads and buffer limits; a test uses one key type, and sees neither what is stored for the session nor what an error leaves behind.", "anchors": ["src/est/est_server_coap.c:est_coap_skg_handler", "src/est/est_server_coap.c:writeCborBytestring", "src/est/est_server.c:est_handle_server_keygen"]}
{"id": "C97", "title": "Endpoint events over CoAP frame each exchange", "statement": "For every message over CoAP the server announces START at most once and END at most once, START first; END comes exactly with the responses that end an exchange (an error, or the last block of the content); START comes with the message that begins one, and the blocks of an upload in between announce nothing. So each START is followed by one END of the same session.", "quantifier": "every message to any of the five resources in every state of its session", "why_tests_cant": "The events come from about twenty exits of four handlers, and which exit is taken depends on what is stored for the session from earlier messages.", "anchors": ["src/est/est_server_coap.c:est_coap_crts_handler", "src/est/est_server_coap.c:est_coap_att_handler", "src/est/est_server_coap.c:est_coap_sen_handler", "src/est/est_server_coap.c:est_coap_skg_handler", "src/est/est_server.c:est_invoke_endpoint_req_event_cb"]}
{"id": "C98", "title": "Over CoAP everything sent has its source in the same session", "statement": "Every content response of the CoAP server (with a format option) carries a piece of data that the EST layer returned for a message that the same session had sent to the same resource, and that message came over (D)TLS with the credentials the resource requires; since then the session was neither closed nor used for another resource. In particular no session is ever sent the key or certificate made for another session, nor one made for an earlier session with the same address.", "quantifier": "all histories of messages, connects and closes of any number of sessions; all EST layers; all table sizes; all splittings into blocks", "why_tests_cant": "The response buffers live in a shared table whose records are found by binary search, moved by sorting and reused; a leak shows only for particular interleavings of sessions.", "anchors": ["src/est/est_server_coap.c:est_coap_simpleenroll_handler", "src/est/est_server_coap.c:est_coap_skg_handler", "src/est/est_server_coap.c:get_coap_req", "src/est/est_server_coap.c:est_coap_event_handler"]}
{"id": "C99", "title": "Enrolment and key generation over CoAP end to end", "statement": "Over CoAP a certificate (or a key with its certificate) is sent only if the CA issued it for the base64 text of a CSR, after the client certificate was verified by TLS (passwords do not help), with enhanced certificate authentication the application agreed, the CSR was parsed and its signature verified, proof of possession held or the client is a registration authority, and the enforced attributes were there. Conversely a client with a verified certificate that uploads a good CSR, in blocks of any size and whatever other sessions do in between, is told to continue after each block and gets exactly what the CA issued with the last one.", "quantifier": "all histories of any sessions, all configurations with CoAP transport, all CSRs and block sizes, all CA callbacks", "why_tests_cant": "Two layers with different conventions (DER and base64, records and callbacks) have to agree for every block size and interleaving; tests run one client at a time.", "anchors": ["src/est/est_server_coap.c:est_coap_simpleenroll_handler", "src/est/est_server_coap.c:est_coap_skg_handler", "src/est/est_server.c:est_handle_simple_enroll", "src/est/est_server.c:est_handle_server_keygen", "src/est/est_server.c:est_enroll_auth"]}
{"id": "C100", "title": "Several requests on one connection are answered one by one", "statement": "On a persistent HTTPS connection on which no read fails, requests sent one after the other, in whatever pieces they arrive, are answered in order, each by the handler for its own header and exactly the number of body bytes its header announces; the first answer after which the connection is not kept ends the service. Whatever a client sends, every response is such an answer or one final refusal that had no effect and is given only because what comes next in the stream is no request that can be handled. The only thing one request leaves to the next is the user name that is shown to the CA: with a CA that does not look at it, each answer is byte for byte the one the same request gets alone on a connection of its own.", "quantifier": "all servers and configurations, all byte streams, all ways in which the stream is cut into reads, all lists of requests", "why_tests_cant": "The buffer is shared between requests: a wrong count of bytes to discard, for one combination of header length, body length and fragment boundaries, would make body bytes be parsed as a request (request smuggling). Tests use a handful of fragmentations and mostly one request per connection.", "anchors": ["src/est/est_server_http.c:process_new_connection", "src/est/est_server_http.c:discard_current_request_from_buffer", "src/est/est_server_http.c:mg_read", "src/est/est_server_http.c:should_keep_alive", "src/est/est_server_http.c:mg_parse_auth_header"]}
{"id": "C101", "title": "The client accepts only CA certificates that chain to a self-issued one of the same message, and hands out what it accepted", "statement": "CA certificates, from a cacerts response or a voucher, are accepted only if the message is a PKCS7 message with signed content that has at least one certificate and every certificate in it verifies up to a self-issued certificate of the same message; one certificate that does not verify is enough to refuse all. What is stored and handed to the application is the message as received, or, if it had CRLs, the same message without them, and the stored length is that of the stored text.", "quantifier": "every message, every result of OpenSSL's parser, verification and encoder", "why_tests_cant": "Needs messages with any number of certificates and CRLs, verification results that a healthy OpenSSL never gives, and texts with unusual line lengths; the tests use the CA files of the repository, which have no CRLs and lines of 64 characters.", "anchors": ["src/est/est_client.c:verify_cacert_resp", "src/est/est_client.c:est_client_remove_crls", "src/est/est_client.c:PKCS7_to_stack", "src/est/est_client.c:create_PKCS7", "src/est/est_client.c:est_client_copy_cacerts"]}
{"id": "C102", "title": "A client context neither misuses nor loses memory", "statement": "From est_client_init to est_destroy, with any calls to the client API between them, no block is released twice, used after its release or used although it could not be allocated, nothing that belongs to the application is released, and after est_destroy everything the library allocated has been released.", "quantifier": "for every sequence of calls, every outcome of the network, the server's answers and OpenSSL's decisions at every step, and every pattern of failing allocations", "why_tests_cant": "Tests follow a handful of paths; this is about every combination of failing steps, including every single allocation failure and every order of calls on one context, and about blocks that survive the context.", "anchors": ["src/est/est.c:est_destroy", "src/est/est_client.c:est_client_init", "src/est/est_client.c:est_client_connect", "src/est/est_client.c:est_client_disconnect", "src/est/est_client.c:est_client_get_cacerts", "src/est/est_client.c:est_client_enroll_req", "src/est/est_client.c:est_client_reenroll", "src/est/est_client.c:est_client_provision_cert", "src/est/est_client_http.c:est_io_get_multipart_response"]}
{"id": "C103", "title": "Handling requests neither misuses nor loses the server's memory", "statement": "While the server handles HTTP requests no block is released twice, used after its release or used although it could not be allocated, no block of somebody else is released, and when a request has been handled every block allocated for it has been released.", "quantifier": "for every sequence of requests, every content of their headers and bodies, every configuration, every decision of the application's callbacks, of OpenSSL and of the network, and every pattern of failing allocations", "why_tests_cant": "A server runs for months and handles requests of hostile clients; a leak or a misuse on one of the many error paths shows only with the right malformed request or a failing allocation at the right moment.", "anchors": ["src/est/est_server_http.c:est_mg_handler", "src/est/est_server.c:est_http_request", "src/est/est_server.c:est_enroll_auth", "src/est/est_server.c:est_handle_simple_enroll", "src/est/est_server.c:est_handle_server_keygen", "src/est/est_server.c:est_handle_csr_attrs", "src/est/est_server.c:est_server_all_csrattrs_present", "src/est/est.c:est_base64_decode", "src/est/est_server_http.c:mg_parse_auth_header"]}
{"id": "C104", "title": "The configuration calls, in whatever order, decide who reaches the CA", "statement": "A new server context requires HTTP authentication and proof of possession. Whatever configuration calls are made on it, in any number and order, each setting is what the last accepted call about it said; refused calls and calls about other things have no influence. Consequently, unless the application's last call about proof of possession switched it off, the CA callback sees only registration authorities and CSRs bound to the client's own TLS session; unless its last call about HTTP authentication waived it (or CoAP was started), the CA callback sees only requests whose credentials the application's callback accepted in that request; after CoAP was started it sees only clients with verified certificates; and once enforcement of attributes was switched on, every CSR it sees has the configured attributes.", "quantifier": "for every sequence of configuration calls with any arguments and outcomes, every application, connection and request", "why_tests_cant": "a test tries a few orders of a few calls; that no combination of calls opens a hole is a statement about all sequences", "anchors": ["src/est/est_server.c:est_set_http_auth_required", "src/est/est_server.c:est_server_enable_pop", "src/est/est_server.c:est_server_disable_pop", "src/est/est_server.c:est_server_init_csrattrs", "src/est/est_server.c:est_server_enforce_csrattr", "src/est/est_server_coap.c:est_server_coap_init_start", "src/est/est_server.c:est_enroll_auth", "src/est/est_server.c:est_tls_uid_auth"]}
{"id": "C105", "title": "Requests and credentials go only to the verified server named last", "statement": "A client context may be used with several servers over time, keeping a TLS session between connections. Whatever was done before, an operation sends its requests only over connections to the server named by the last accepted est_client_set_server; the certificate of that connection bears that name and was proved in a full TLS handshake of this context (in this operation, or earlier if the session was resumed) in which every fault was excused. Credentials are sent only to a server that asked for them.", "quantifier": "for every sequence of calls on a context, every behaviour of the servers, every acceptance or refusal of session resumption, every verification callback of the application", "why_tests_cant": "tests use one server per context and cannot enumerate interleavings of session resumption, change of server and failed handshakes", "anchors": ["src/est/est_client.c:est_client_connect", "src/est/est_client.c:est_client_disconnect", "src/est/est_client.c:est_client_set_server", "src/est/est_client.c:est_client_check_fqdn", "src/est/est_client.c:cert_verify_cb"]}
{"id": "C106", "title": "The TLS settings of a server over its life", "statement": "On the context of a server or a proxy, whatever sequence of calls is made to configure it, start it, stop it and hand it connections: every HTTPS connection on which requests are served uses TLS 1.1 or 1.2 with a suite that is neither anonymous, unencrypted nor broken; SRP only if the application registered its callback; ephemeral keys with the curve and parameters chosen; a client certificate only if it was verified against the trusted certificates given at initialisation, with CRL checks exactly if the application asked for them before the start. Such a connection is only served between a successful start and the next stop, a client that fits the settings is served, no released memory is used, and no service or parameters are lost.", "quantifier": "all sequences of calls, all results of the library calls made while starting, all clients", "why_tests_cant": "The settings are made once and spread over many library calls; a test connects with a few clients after one start, and does not look at a second start, a failed one, or a stop that is repeated.", "anchors": ["src/est/est_server_http.c:set_ssl_option", "src/est/est_server_http.c:est_server_handle_request", "src/est/est_server_http.c:mg_start", "src/est/est_server.c:est_server_start", "src/est/est_server.c:est_server_stop", "src/est/est_proxy.c:est_proxy_stop", "src/est/est.c:est_enable_crl"]}
{"id": "C107", "title": "A client that was given credentials presents them, and is enrolled exactly if the server knows them", "statement": "After any sequence of accepted calls, the credentials a client presents are the user name and password last given to est_client_set_auth, unless both are empty; otherwise those the registered callback answers. They are presented unchanged in the mode the server asked for (Basic, Digest or Token), and a client without a certificate is enrolled exactly if the application behind the server knows them. A refused call changes nothing, and a digest names the URI of its request.", "quantifier": "all sequences of calls, all credentials, all challenges, all applications that check passwords, digests or tokens", "why_tests_cant": "The credentials pass through fixed buffers, an encoding, a header, a decoder and a callback on the other side; a test uses a few short names and one mode.", "anchors": ["src/est/est_client.c:est_client_set_uid_pw", "src/est/est_client.c:est_client_set_auth", "src/est/est_client.c:est_client_set_auth_cred_cb", "src/est/est_client.c:est_client_retrieve_credentials", "src/est/est_client.c:est_client_add_auth_hdr", "src/est/est_client_http.c:est_io_parse_http_auth_request"]}
{"id": "C108", "title": "A request through proxies ends as if it had been put to the server, and only the CA's certificate comes back", "statement": "When a client enrols or re-enrols through any number of EST proxies, each of which admits it and forwards it with its own credentials, the client ends with the decision of the server at the end: the certificate its CA issued for exactly this CSR, the same retry delay, or a refusal. A certificate is never made on the way: the server has authenticated the last proxy and checked the CSR. A proxy that stops the request or cannot reach the next party is reported to the client as a refusal.", "quantifier": "all numbers of proxies, all configurations of client, proxies and server, all CSRs, all schedules of received bytes, one or two connections at each step", "why_tests_cant": "The statement is about a chain of parties of any length, each with its own credentials, buffers and retries; a test runs one proxy in one configuration.", "anchors": ["src/est/est_proxy.c:est_proxy_http_request", "src/est/est_proxy.c:est_proxy_handle_simple_enroll", "src/est/est_proxy.c:est_proxy_send_enroll_request", "src/est/est_server_http.c:process_new_connection", "src/est/est_server.c:est_handle_simple_enroll", "src/est/est_client.c:est_client_enroll"]}
{"id": "C109", "title": "Enhanced certificate authentication asks the application about the field the calls named, and a checked CSR names the same device", "statement": "When the server operator has switched on enhanced certificate authentication and registered manufacturers, in whatever order and with whatever other calls in between, a client with a verified certificate reaches the CA only if the application's callback accepts a user name that is the text of the client certificate's subject field: the field registered with the manufacturer that issued the certificate (the first whose trusted certificates verify it), or the local field when there is none, together with the configured password. If the CSR check was asked for, the CSR repeats that field of the certificate. A client that meets all of this is admitted.", "quantifier": "all sequences of configuration calls, all manufacturers and fields, all verification results, all certificates and CSRs", "why_tests_cant": "The outcome depends on a history of calls, four slots of a list, a search over verification results and two subject names; a test registers one manufacturer once and presents one certificate.", "anchors": ["src/est/est_server.c:est_server_enable_enhanced_cert_auth", "src/est/est_server.c:est_server_enhanced_cert_auth_add_mfg_info", "src/est/est_server.c:handle_enhanced_cert_auth", "src/est/est_enhcd_cert_auth.c:est_enhcd_cert_auth_get_mfg", "src/est/est_enhcd_cert_auth.c:perform_enhanced_cert_auth_csr_check", "src/est/est_enhcd_cert_auth.c:build_enhanced_cert_auth_header"]}
{"id": "C110", "title": "A context is created exactly from usable arguments, holds what it was given, and a refusal leaves nothing behind", "statement": "est_server_init, est_proxy_init and est_client_init return a context exactly when (memory permitting) the trust anchors are PEM text whose length is given right and that contains at least one certificate, the text for the cacerts answer (if any) can be converted, identity certificate, key and realm are given, and for a proxy user name and password are both given or both absent and fit. The context then holds the certificates and CRLs in their order, the cacerts answer made of exactly the certificates given for it, the realm, the credentials and, for a proxy, the copy of the trust anchors; authentication is required, Basic, and proof of possession is checked. A context that is destroyed, and a call that refuses, leave no memory allocated.", "quantifier": "all arguments (any texts and lengths, null pointers), all contents of the PEM buffers, all patterns of failing allocations", "why_tests_cant": "Tests call the init functions with a handful of null pointers and good files; they do not try texts without certificates, lengths at the limit or failing allocations, and they do not look at what is left allocated after a refusal.", "anchors": ["src/est/est_server.c:est_server_init", "src/est/est_proxy.c:est_proxy_init", "src/est/est_client.c:est_client_init", "src/est/est.c:est_load_ca_certs", "src/est/est.c:est_load_trusted_certs", "src/est/est.c:est_get_certs_pkcs7", "src/est/est_ossl_util.c:ossl_init_cert_store"]}
{"id": "C111", "title": "CA certificates and CSR attributes through proxies", "statement": "A client that asks for CA certificates through any number of HTTPS proxies gets them exactly if the last party distributes some and they pass the verification of every proxy that asked on and of the client itself; it then stores what these verifications left of them. CSR attributes arrive as the server decided to send them: unchanged through proxies without proof of possession, with challengePassword added (or alone, if there are no attributes) by proxies with it; if a party on the way refuses them or cannot be reached, the client's call reports an error and hands out nothing.", "quantifier": "for all chains of proxies and a server (or a proxy with certificates of its own at the end), all texts distributed, all verification results at each hop, all settings of proof of possession, all connections that fail", "why_tests_cant": "needs several parties at once, each with its own verification and settings; the tests in /repo put one proxy in front of one server and look at status codes", "anchors": ["src/est/est_proxy.c:est_proxy_handle_cacerts", "src/est/est_proxy.c:est_proxy_handle_csr_attrs", "src/est/est_proxy.c:est_proxy_retrieve_cacerts", "src/est/est_client.c:est_client_get_cacerts", "src/est/est_client.c:est_client_get_csrattrs", "src/est/est_server.c:est_handle_cacerts", "src/est/est_server_http.c:est_send_csrattr_data"]}
{"id": "C112", "title": "BRSKI works end to end between pledge and registrar", "statement": "When a libest pledge's voucher request or status report reaches a libest registrar, in whatever pieces its bytes arrive, the registrar's application is given exactly the text the pledge composed (with its nonce and the registrar's certificate in a voucher request), exactly once, if and only if the registrar admits the pledge; a pledge that is challenged sends the same text with its credentials on a second connection, and only that one is passed on. The pledge's function returns success for a report exactly if the application accepted it. A voucher with the nonce sent, the pledge's serial number and an acceptable certificate makes the pledge's application able to copy exactly that certificate. If the application says \"later\", the pledge sleeps for the registrar's period, at most 60 seconds, and asks once more; what that exchange gives is the result.", "quantifier": "for all reports, nonces, times, serial numbers and registrar certificates that fit the buffers, all answers of the application, all schedules of arrival, all modes of authentication, all admission decisions", "why_tests_cant": "needs a registrar, a pledge and an application on both sides, over all answers and admission decisions; that nothing is passed on twice or without admission is a statement about all runs", "anchors": ["src/est/est_client.c:est_client_brski_get_voucher", "src/est/est_client.c:est_client_brski_send_voucher_status", "src/est/est_client.c:est_client_brski_send_enroll_status", "src/est/est_server.c:est_brski_handle_voucher_req", "src/est/est_server.c:est_brski_handle_voucher_status", "src/est/est_server.c:est_brski_handle_enroll_status", "src/est/est_server_http.c:process_new_connection", "src/est/est_client_http.c:est_io_get_response"]}
{"id": "C113", "title": "The performance timers tell where a session's time went", "statement": "With timers enabled, the log lines of a CoAP session are one gap and one handling time for each answered request, in order and with the request's name and the session's key, then the session's time; the gaps and handling times add up to the time between connecting and closing. Every answered CoAP request has a line, every pause between two runs of the event loop has one, and an HTTP request has one line for itself and one for each of its stages. A line shows the difference of the two clock readings to the microsecond. With timers disabled nothing is logged, and switching timers on or off never makes the library print an invalid pointer.", "quantifier": "for all sequences of connects, messages and closes of a session, all times, all kinds of request and all ways a request can end, all points at which timers are switched", "why_tests_cant": "the sums are over arbitrary sequences of requests and clock readings, and the timers' state is not visible; tests only look whether some line was printed", "anchors": ["src/est/est.c:start_timer", "src/est/est.c:stop_timer_with_id", "src/est/est.c:start_coap_req_timers", "src/est/est.c:enter_wait_coap_req_timers", "src/est/est.c:start_http_req_timer", "src/est/est_server_coap.c:get_coap_req", "src/est/est_server_coap.c:reinit_coap_req", "src/est/est_server_coap.c:remove_coap_req", "src/est/est_server.c:est_http_request"]}
{"id": "C114", "title": "Every connection the client opens is closed, exactly once", "statement": "Each function of the client that talks to a server, and each forwarding by a proxy, has closed every socket, libcurl handle, BIO and SSL object it opened when it returns, whatever failed on the way; none is closed twice, nothing is written to a socket after it was closed, and nothing that others have open is touched.", "quantifier": "for all sequences of operations on a context, all outcomes of name lookup, connects, handshakes, name checks, requests and authentication, direct or through an HTTP proxy, and all patterns of failing system calls and allocations", "why_tests_cant": "a leak needs a particular failure at a particular point, and a double close only does harm if the descriptor number was reused in between; the failures of socket, BIO_new or RAND_bytes cannot be provoked one by one", "anchors": ["src/est/est_client.c:est_client_connect", "src/est/est_client.c:est_client_disconnect", "src/est/est_client.c:est_client_enroll_internal", "src/est/est_client.c:est_client_get_cacerts", "src/est/est_client.c:est_client_brski_send_get_voucher", "src/est/est_proxy.c:est_proxy_send_enroll_request", "src/est/est_client_proxy.c:tcw_direct_connect", "src/est/est_client_proxy.c:tcw_curl_connect", "src/est/est_client_proxy.c:tcw_close"]}
{"id": "C115", "title": "The bounded string and memory functions stay inside the sizes they are given", "statement": "Each function of safe_c_stub, given the true sizes of its objects, neither reads nor writes outside them; copies and comparisons and searches have the result that their description says; a string that was copied or appended ends with a zero byte inside the destination, or an error is returned; repeated calls of strtok_s return the words of a text.", "quantifier": "for all contents of the objects, all texts, all sizes up to RSIZE_MAX and all delimiters", "why_tests_cant": "the sizes that go wrong are those at the boundary (a text exactly as long as the buffer, an unterminated buffer, the size with the zero byte counted), and a write of one byte behind an object usually has no visible effect in a test", "anchors": ["safe_c_stub/src/safe_mem_stub.c:memcpy_s", "safe_c_stub/src/safe_mem_stub.c:memmove_s", "safe_c_stub/src/safe_mem_stub.c:memset_s", "safe_c_stub/src/safe_str_stub.c:strcpy_s", "safe_c_stub/src/safe_str_stub.c:strncpy_s", "safe_c_stub/src/safe_str_stub.c:strcat_s", "safe_c_stub/src/safe_str_stub.c:strcasecmp_s", "safe_c_stub/src/safe_str_stub.c:strtok_s"]}
{"id": "C116", "title": "Handling requests neither misuses nor loses the proxy's memory", "statement": "A proxy that handles any requests on any threads, retrieves CA certificates, changes its path segment and is destroyed at the end never uses or releases a memory block after its release, never uses a NULL pointer, keeps every block that it does not own, and leaves nothing behind.", "quantifier": "for all sequences of operations on all threads, all answers of upstream servers, applications and OpenSSL, all sizes of the table, and all patterns of failing allocations", "why_tests_cant": "leaks of a proxy show only after many requests of clients with certificates or with an upstream server whose handshakes fail; the tests neither make allocations fail nor run more threads than the table has entries", "anchors": ["src/est/est_proxy.c:get_client_ctx", "src/est/est_proxy.c:proxy_cleanup", "src/est/est_proxy.c:est_proxy_send_enroll_request", "src/est/est_proxy.c:est_proxy_handle_simple_enroll", "src/est/est_proxy.c:est_proxy_handle_server_keygen", "src/est/est_proxy.c:est_proxy_handle_cacerts", "src/est/est_proxy.c:est_proxy_handle_csr_attrs", "src/est/est_proxy.c:est_proxy_http_request", "src/est/est_proxy.c:est_proxy_retrieve_cacerts", "src/est/est_proxy.c:est_proxy_store_path_segment"]}
{"id": "C117", "title": "The Java methods give Java the certificates the library got, or an exception that says why not", "statement": "A Java call that enrols, renews, fetches CA certificates or makes a signing request misuses no memory whatever Java passes and whichever allocations fail. It ends with a length and as many bytes in Java's array, or with -1, an exception and nothing in the array. The library is called with Java's data in the documented order; there is a length only if the library reported success, and the bytes are then the certificates the server sent (or the signing request made), fewer than the configured limit. The exception carries the library's error code with a text from the error table, 'try again later' has its own class. Missing arguments are refused before anything is done. The limit stays between 0 and 131072. After the call nothing is left of the memory it used, no private key in particular.", "quantifier": "all arguments of the nine native methods (including null references), all limits and changes of the limit, all answers of OpenSSL, of the library and of the server, all patterns of allocation failure", "why_tests_cant": "The Java tests need a virtual machine and a server; null references to create_csr, allocation failures, unconvertible or oversized answers and a limit that changes during a call are not tried, and copies that are committed but never released are not visible to assertions.", "anchors": ["java/jni/client.c:send_enroll_request", "java/jni/client.c:send_cacerts_request", "java/jni/client.c:Java_com_cisco_c3m_est_PKCS10CertificateRequest_create_1csr", "java/jni/client.c:est_client_raise_exception", "java/jni/client.c:jni_est_client_X509_REQ_sign", "src/est/est_ossl_util.c:est_convert_p7b64_to_pem"]}
{"id": "C118", "title": "An application that goes through the CSR attributes with the helpers gets every identifier once and comes to an end", "statement": "The helpers read nothing outside the text and the data they are given. A text that the client has accepted is decoded to its bytes, and no call on them fails. Called again and again as the sample client does, until nothing is left, est_get_attributes_helper gives the number of every OBJECT IDENTIFIER of the attributes, in order and each once, and the end is recognisable. An attribute is added to a request exactly if all arguments are there and OpenSSL takes it.", "quantifier": "all texts, all byte sequences, all trees of SEQUENCE, SET and primitive values with any identifiers, any number of calls", "why_tests_cant": "Tests use attribute lists that end with an identifier; whether a loop ends for every attribute list that the client accepts from a server cannot be tried out.", "anchors": ["src/est/est.c:est_get_attributes_helper", "src/est/est.c:est_decode_attributes_helper", "src/est/est.c:est_add_attributes_helper", "example/client/estclient.c:regular_csr_attempt"]}
{"id": "C119", "title": "Manual approval in the sample server: signed on the second request", "statement": "With manual approval the sample server has a request signed exactly if an odd number of earlier requests with the same public key reached its CA callback: the first request with a key is answered with a retry (202), the second is signed and gets what the CA produced, the third is told to wait again. Requests that are refused before the callback count for nobody, an approval is used at most once, and the two builds of the table (search tree, linked list) answer alike.", "quantifier": "for every history of enrolments, re-enrolments and key generations of any clients in any order, every key, every parser, every CA, every configuration of the library, both builds of the lookup table, every shape of the tree", "why_tests_cant": "Tests send one request twice; the rule has to hold for every interleaving of clients and keys, for requests refused in between, for CA failures, and for trees of any shape after deletions, and the two builds never run in one test.", "anchors": ["example/server/estserver.c:lookup_pkcs10_request", "example/server/estserver.c:process_pkcs10_enrollment", "example/server/estserver.c:process_srvr_side_keygen_pkcs10_enrollment", "example/server/estserver.c:compare", "example/server/estserver.c:delete_lookup_entry", "src/est/est_server.c:est_handle_simple_enroll", "src/est/est_server.c:est_handle_server_keygen"]}
{"id": "C120", "title": "Secrets are overwritten before their memory is given back", "statement": "Credentials that an application hands over, the text of an enrolment with its authentication line, the password and token a server has parsed, and the private key a server generates are overwritten from end to end before the memory that held them is passed to free (or, for the arrays of the Digest code and the Basic parser, before the function returns), and no block that holds one of them is forgotten.", "quantifier": "for every value of every length within the library's limits, every previous content of the buffers, every outcome of the library calls, callbacks and writes in between, every point at which a request for a key can stop, over HTTP and CoAP, server and proxy", "why_tests_cant": "No test can look at released memory in a defined way: the property is about the contents of blocks at the moment of free and of stack frames at return, on every error path, and the observable answers are the same with or without the overwriting.", "anchors": ["src/est/est.c:cleanse_auth_credentials", "src/est/est_client.c:est_client_retrieve_credentials", "src/est/est_client.c:est_client_add_auth_hdr", "src/est/est_client.c:est_client_send_enroll_request_internal", "src/est/est_client.c:est_client_copy_server_generated_key", "src/est/est_server.c:est_destroy_ah", "src/est/est_server.c:est_handle_server_keygen", "src/est/est_server_http.c:mg_parse_auth_hdr_basic", "src/est/est_server_coap.c:est_coap_skg_handler", "src/est/est_proxy.c:est_proxy_handle_server_keygen"]}
{"id": "C121", "title": "The CoAP handlers neither misuse nor lose memory", "statement": "Over the life of a server in CoAP mode, from loading the CA certificates through any sequence of requests to its four resources (enrolment, key generation, CA certificates, CSR attributes) to est_destroy, no memory block is used or released after its release, no null pointer is written through, no block of the application is released, and every block that a request allocates has been released when the server ends.", "quantifier": "all sequences of requests with any client certificate, any stage (refused, further block wanted, answer stored, complete), any outcome of decoding, checking and application callbacks, and any pattern of failing allocations", "why_tests_cant": "A test has to make one particular malloc of a successful enrolment fail, and leaks of two BIOs per request or of a replaced pointer do not show in any response; the tests link neither a failing allocator nor count blocks.", "anchors": ["src/est/est_server_coap.c:est_coap_sen_handler", "src/est/est_server_coap.c:est_coap_skg_handler", "src/est/est_server_coap.c:est_coap_crts_handler", "src/est/est_server_coap.c:est_coap_att_handler", "src/est/est_server.c:est_server_handle_cacerts", "src/est/est_server.c:est_handle_csr_attrs", "src/est/est.c:est_base64_encode", "src/est/est.c:est_destroy"]}
{"id": "C122", "title": "The BRSKI calls of the client neither misuse nor lose memory", "statement": "Over the life of a client context in BRSKI mode, from est_client_init through any sequence of est_client_brski_get_voucher, est_client_brski_copy_cacert, the two status messages and the calls of plain EST to est_destroy, no memory block is used or released after its release, no null pointer is used, no structure is read as one of another type, no block of the application is released, and every block allocated on the way has been released at the end.", "quantifier": "all sequences of calls with any connection, session, certificate, answer and voucher of the registrar, any retry, and any pattern of failing allocations", "why_tests_cant": "The tests of BRSKI run one voucher exchange and look at its return code; that each voucher leaves two blocks behind, or that a failing clock leaves a connection behind, does not show in it, and no test uses the content type that RFC 8366 prescribes.", "anchors": ["src/est/est_client.c:est_client_brski_get_voucher", "src/est/est_client.c:est_client_brski_send_get_voucher", "src/est/est_client.c:est_client_brski_send_voucher_request", "src/est/est_client.c:verify_voucher", "src/est/est_client.c:brski_parse_voucher", "src/est/est_client.c:est_brski_get_server_cert", "src/est/est_client.c:ossl_get_certs_pkcs7", "src/est/est_client.c:est_client_brski_copy_cacert", "src/est/est_client.c:send_status", "src/est/est.c:est_destroy"]}
{"id": "C123", "title": "Reading and writing on a connection end in time and lose nothing", "statement": "On both sides a read hands on exactly a beginning of the bytes the peer sent, in order and never more than was asked for, however they are cut into pieces; success is reported only for the whole. A write sends the whole text or reports a failure with the count of bytes sent. A peer that is silent is given up after the configured time-out, a server that is told to stop stops waiting, and no call goes on for ever.", "quantifier": "all byte streams, all sequences of answers of poll, SSL_pending, SSL_read, SSL_peek and SSL_write, all moments of the stop flag, all time-outs, all buffer sizes and all texts", "why_tests_cant": "The tests use a local peer that answers at once and closes the connection; how bytes are cut into pieces, signals during a poll, a write of zero bytes, partial TLS records and texts of exactly the buffer size do not occur, and a time-out of hours cannot be waited for.", "anchors": ["src/est/est_server_http.c:push", "src/est/est_server_http.c:wait_until_socket_is_readable", "src/est/est_server_http.c:pull", "src/est/est_server_http.c:mg_read", "src/est/est_server_http.c:read_request", "src/est/est_server_http.c:mg_write", "src/est/est_server_http.c:mg_printf", "src/est/est_client_http.c:est_ssl_read", "src/est/est_client_http.c:est_io_read_raw"]}
{"id": "C124", "title": "Requests handled at the same time do not disturb each other", "statement": "When several threads of an application call into the library with one context, the effect on each client is that of handling the requests one after the other: a client that asks for CSR attributes is asked for challengePassword exactly once if the server demands proof of possession; each thread of a proxy gets its own upstream client context, always the same one, and no memory is used after its release; the manual approval of the sample server lets one request through for each request that waited and loses none. (It fails: the flag that decides about challengePassword, the table of client contexts and the list of waiting requests are shared without a lock.)", "quantifier": "for every number of requests and every interleaving of their accesses to the shared data", "why_tests_cant": "a race shows only in a few of the enormously many interleavings, and which one happens depends on the scheduler; a test suite with one client at a time never produces any of them", "anchors": ["src/est/est_server.c:est_handle_csr_attrs", "src/est/est_proxy.c:est_proxy_handle_csr_attrs", "src/est/est_proxy.c:get_client_ctx", "example/server/estserver.c:lookup_pkcs10_request"]}
{"id": "C125", "title": "Log messages and error events reach the application and change nothing else", "statement": "A message reaches the logger that was set last, with its prefix and the text its format shows, exactly if its level is wanted; every error message is announced once to the error callback that was set last; the errors of OpenSSL reach the callback for TLS errors as a string. The wanted level decides only about what is logged: a quieter level leaves out messages and changes nothing else, and no level makes a call of the library undefined. (It fails: objects of OpenSSL and texts without NUL are printed as strings, and backtraces ignore the level.)", "quantifier": "for every sequence of messages, of calls that set the logger, the level, the backtraces and the callbacks, every format and arguments, every error queue of OpenSSL and every list of CA certificates", "why_tests_cant": "the tests run with one fixed log level and do not compare runs with different ones; reading behind a text without NUL is invisible as long as a zero byte happens to follow", "anchors": ["src/est/est.c:est_log", "src/est/est.c:est_log_backtrace", "src/est/est.c:est_init_logger", "src/est/est_server.c:est_set_est_err_event_cb", "src/est/est_server.c:est_invoke_est_err_event_cb", "src/est/est_server.c:est_invoke_ssl_proto_err_event_cb", "src/est/est_ossl_util.c:ossl_dump_ssl_errors", "src/est/est_client.c:verify_cacert_resp"]}
{"id": "C126", "title": "Every connection the sample server accepts is handed to the library once, in order, and closed", "statement": "Each connection that the accepting thread of the sample server or proxy accepts is passed to est_server_handle_request exactly once and then closed once; connections leave the queue in the order they were accepted; the index into the ring of twenty always is in range; at any time the threads can go on so that a waiting connection is served; and once the server is told to stop, all workers return, no connection is left open, and the context is not released before. (The part about stopping fails: a worker can miss the wake-up and then the server never ends, accepted connections are left open, and start_simple_server returns while workers still use the context.)", "quantifier": "for every number of workers and every interleaving of the accepting thread, the workers, the signal handler, the main thread and spurious wake-ups", "why_tests_cant": "a test runs one schedule chosen by the operating system; lost wake-ups and the window between the test of stop_flag and pthread_cond_wait are hit once in very many runs", "anchors": ["example/util/simple_server.c:grab_work", "example/util/simple_server.c:worker_thread", "example/util/simple_server.c:process_socket", "example/util/simple_server.c:master_thread", "example/util/simple_server.c:start_simple_server"]}
{"id": "C127", "title": "The sample certification authority gives out what its policy allows, under a fresh serial number each time", "statement": "A certificate that ossl_simple_enroll gives out carries the key of a request whose signature was checked, the name of the authority as issuer, the number of the serial file, the subject that the lines of the policy make of the name in the request, and the extensions that the copy mode allows. Over any number of enrolments, with files that may fail to open, to be written or to be renamed and a process that may be killed at any point, no serial number is given out twice; with unique_subject no subject is; acceptable requests keep getting certificates; and failures that are noticed leave the files in order. (Fails in four places: a short write that nobody notices can repeat a serial number, a certificate with an empty subject makes later lookups compare with NULL, a serial number of 126 bytes overruns an array, and a failed rename can end the authority for good.)", "quantifier": "for every configuration, request, state of the files, sequence of enrolments and every failure of a file operation in each of them", "why_tests_cant": "tests sign a handful of requests on a disk that works; the interesting states come after a short write, a failed rename or a kill between two renames, and serial numbers repeat only much later", "anchors": ["example/server/ossl_srv.c:ossl_simple_enroll", "example/server/ossl_srv.c:certify", "example/server/ossl_srv.c:do_body", "example/server/ossl_srv.c:copy_extensions", "example/server/ossl_srv.c:load_serial", "example/server/ossl_srv.c:save_serial", "example/server/ossl_srv.c:rotate_serial", "example/server/ossl_srv.c:load_index", "example/server/ossl_srv.c:save_index", "example/server/ossl_srv.c:rotate_index"]}
{"id": "C128", "title": "What the sample registrar does with BRSKI messages", "statement": "The three BRSKI callbacks of the sample server read the client's JSON message without leaving the memory they own; a status message is acknowledged exactly if it has a status and a reason; a voucher request is answered with a voucher, signed with the MASA's key, that carries the nonce of the request, the server's certificates and the serial number of the peer's certificate and nothing else, so that the client that asked accepts it; and no block is lost or freed twice.", "quantifier": "for all message bodies, peer certificates, contents of the server's certificate store, results of the signing function and failing allocations", "why_tests_cant": "The overruns need messages of particular lengths or token counts and usually do not crash; the missing NUL behind the certificates is hidden by the padding of the allocator; and a test uses the client of the same repository, which never sends an object in place of a nonce.", "anchors": ["example/server/estserver.c:process_brski_voucher_request", "example/server/estserver.c:process_brski_voucher_status", "example/server/estserver.c:process_brski_enroll_status", "example/server/estserver.c:dump", "example/server/estserver.c:est_load_ca_certs"]}
{"id": "C129", "title": "Who the sample server lets in", "statement": "estserver lets a client enrol exactly if it presents the credentials the server was configured with. The options determine the scheme (a token before Basic before Digest, Basic by default), whether HTTP authentication is demanded, and the token, realm and password. With Basic the header has to decode to \"estuser:estpwd\", with Digest it has to carry the RFC 2617 response for that password, realm and the fields of the header, with a token the text has to be the configured one; only with enhanced certificate authentication a verified certificate with the common name 127.0.0.1 does instead. A client of this library with the right credentials enrols and with other ones is refused. No header makes the server access memory it may not; a nonce it did not send is not accepted; and it prints no secrets. SRP lets in known users only, and the other callbacks hand out well-formed data.", "quantifier": "for all option lists, Authorization headers, hash functions with 16-byte values, peers, subject texts and environments", "why_tests_cant": "Tests use the one known user with correct headers; a header without a response, with a stale nonce, or with the name of a certificate is not tried, and a write one byte behind an array of 64 goes unnoticed.", "anchors": ["example/server/estserver.c:process_http_auth", "example/server/estserver.c:process_ssl_srp_auth", "example/server/estserver.c:extract_sub_name", "example/server/estserver.c:process_csrattrs_request", "example/server/estserver.c:main", "src/est/est_server.c:est_enroll_auth"]}
{"id": "C130", "title": "What the sample client does with a command line", "statement": "A round of estclient sets up one context with exactly the values of the command line and leaves the process with 1 if a call of this set-up fails; a round that comes to its end has made one context, first of all, and destroyed it, last of all. It requests only what the command line asks for. An enrolment is requested at most once, unless the server puts it off; then the client asks the library when to come back, waits that long and requests it once more. Each file it writes has the attributes, or what was copied out of the library after a request that has worked; files of different kinds, threads and rounds have different names. A failure is reported if and only if something that was asked for has failed. Proof of possession and the common name are used when they are asked for. What was allocated is freed. The callbacks accept only certificates without a revocation list, and hand over the token and the password of the command line. A thread does as many rounds as it is told, one after the other.", "quantifier": "for all command lines (already parsed), thread and round numbers, and all answers of libest, OpenSSL, the clock, the memory and the file system", "why_tests_cant": "Tests start the client with a few command lines against a working server; a failing copy, a retry date, a key that cannot be copied, a long directory name or several operations in one run are not tried.", "anchors": ["example/client/estclient.c:worker_thread", "example/client/estclient.c:simple_enroll_attempt", "example/client/estclient.c:regular_enroll_attempt", "example/client/estclient.c:regular_csr_attempt", "example/client/estclient.c:retry_enroll_delay", "example/client/estclient.c:save_cert", "example/client/estclient.c:client_manual_cert_verify", "example/client/estclient.c:auth_credentials_token_cb"]}
{"id": "C131", "title": "The sample client does what its command line says", "statement": "For every command line, when the sample client goes on to make requests, each setting it uses is that of the last option of its kind on the command line (user name and password cut to 255 bytes, the token to 512, the path segment to 128); combinations that make no sense are refused and other command lines are not; the limits on threads, rounds and time-out hold; the certificates of the trust anchor given were read; a private key is made exactly when an enrolment is asked for without a key or CSR, is stored under the output directory and read from there; and a thread makes a request only if its option is on the command line, with the common name given there.", "quantifier": "all command lines (any options in any order, any byte strings as values), all answers of the file system and of OpenSSL, all schedules of one thread's answers", "why_tests_cant": "the options interact: the order, repeats, prefixes of option names and values, and lengths at the array sizes all matter; tests run a few fixed command lines", "anchors": ["example/client/estclient.c:main", "example/util/utils.c:generate_private_RSA_key"]}
{"id": "C132", "title": "Subject names are read as they are written", "statement": "For every text without a zero byte, the sample certification authority's parse_name gives a name exactly if the text is a way of writing a list of elements (type, equals sign, value, separated by slashes or, when allowed, plus signs, with backslashes before any characters), and then the name has the elements with a known type and a value, in the order written and in the relative names they were written in; each list of elements can be written and is read back; a text stands for one list only; nothing is written outside the four blocks and every block is given back once.", "quantifier": "all texts without zero bytes, all tables of object names, all decisions of OpenSSL on values, all outcomes of the memory allocations, with and without multi-valued relative names", "why_tests_cant": "escapes, empty parts and ends of the text interact, and the blocks are sized by a bound on the number of elements; tests use a few well-formed names and do not see leaks", "anchors": ["example/server/ossl_srv.c:parse_name"]}
{"id": "C133", "title": "The command line is taken apart as it is written", "statement": "For every command line and every set of options, the getopt_long that is shipped for Windows, called in a loop as by the sample client's main, sees the options in their order with their arguments whenever they are written in one of the usual ways (letters alone or together, an argument in the same or the next word, a long name in full, with an equals sign or the next word), sees something bad exactly where there is no such option or an argument is missing, and leaves the other words; the meaning is unique; nothing outside of the words is read and the loop ends for every command line; no other command line is understood (abbreviations of several names, an argument for an option without one, an empty name, a minus sign among letters).", "quantifier": "all command lines, all option strings and tables of long options; for the sample client its own", "why_tests_cant": "the ways of writing options combine without bound and the state kept between calls matters; a test tries a few lines, and only on systems that have another getopt_long", "anchors": ["example/windows_util/getopt_long.c:getopt_long", "example/windows_util/getopt_long.c:getopt_internal", "example/client/estclient.c:main"]}
{"id": "C134", "title": "Dates in Retry-After mean what they say", "statement": "For every date from 1970 on and every time of the day, the date parser of the client (compiled when retry dates are supported) turns the preferred form of HTTP (RFC 1123, with GMT or a numeric offset), the form of RFC 850 and the form of asctime into the number of seconds since 1970 that counting the days gives; it never reads outside of the text; a time it reports fits into 32 bits; dates that do not exist are refused; and a date in a Retry-After header is reported to the caller as a request to come back.", "quantifier": "all dates of the Gregorian calendar from 1970 to 9999, all times of the day, all offsets up to 14 hours; for memory and limits all texts; for the caller all lists of headers", "why_tests_cant": "the calendar has 400-year cycles and the forms differ in every date; the code is not even compiled by default, and reads outside of the text only show with a memory checker on texts nobody writes", "anchors": ["src/est/est_client_http.c:parsedate", "src/est/est_client_http.c:my_timegm", "src/est/est_client_http.c:checktz", "src/est/est_client_http.c:est_io_parse_http_retry_after_resp"]}
{"id": "C135", "title": "Whatever an application turns on, the client's TLS authenticates the server", "statement": "A client context that was created allows TLS 1.1 and 1.2 only, offers only suites with a certificate and with AES or ChaCha20, and demands and checks the server's certificate; turning on SRP makes it offer SRP suites only, with the user and the password given, and without trust anchors only those without certificate. After any number of calls that turn on SRP or the BRSKI mode, failed or not, nothing undefined has happened and a connection comes about only with a server that showed a certificate whose chain is excused and whose name fits, or that knows by SRP a user and a password the application has given in one call. A call that fails changes nothing.", "quantifier": "all answers of OpenSSL, all sequences of calls, all certificates and chains, all suites", "why_tests_cant": "every order of calls and every failure inside of OpenSSL would have to be tried against servers that lie in every possible way", "anchors": ["src/est/est_client.c:est_client_init_ssl_ctx", "src/est/est_client.c:est_client_enable_srp", "src/est/est_client.c:est_client_set_brski_mode", "src/est/est_client.c:est_client_check_fqdn"]}
{"id": "C136", "title": "A CoAP server that was started listens, and what it takes it gives back", "statement": "When est_server_coap_init_start returns success, the server has a DTLS endpoint with the configured limit of sessions at every address the resolver gives for the port (asked for in decimal), demands and checks client certificates, has the handshake timer and MTU as configured, is linked to the EST context, and requests reach exactly the handlers of their EST operation; otherwise the context is as before. Whatever fails, and in any sequence of starts, requests and stops, every context of libcoap, list of addresses and socket is released exactly once, at the latest with the EST context.", "quantifier": "all answers of libcoap and the resolver, all ports, all sequences of starts, stops and requests, all URIs and methods", "why_tests_cant": "failures of libcoap and of the resolver, odd addresses and the order of calls are hard to produce, and what is lost does not show in the answers", "anchors": ["src/est/est_server_coap.c:est_server_coap_get_context", "src/est/est_server_coap.c:est_server_coap_set_pki_identity", "src/est/est_server_coap.c:est_server_coap_init_start", "src/est/est_server_coap.c:est_server_coap_init_resources", "src/est/est_server_http.c:est_server_coap_handle_request", "src/est/est_server.c:est_server_stop"]}
{"id": "C137", "title": "The samples' utilities read files as they are and give back usable keys", "statement": "The utility of the sample programs that reads a file returns the number of its bytes and a block with exactly these bytes and a NUL behind them, or a negative number if it cannot be read, and never touches other memory; what the utility for writing wrote is read back; the utilities that generate keys return a text in which a key was written, or nothing, end, and leave nothing allocated but the text; a key is loaded by the decoder of the format asked for.", "quantifier": "all contents and sizes of files, all failures of the system and of OpenSSL, any number of rounds of asking for a passphrase", "why_tests_cant": "huge files, full disks, exhausted memory and failing generators are not tried, and what is leaked does not show", "anchors": ["example/util/utils.c:read_binary_file", "example/util/utils.c:write_binary_file", "example/util/utils.c:generate_private_RSA_key", "example/util/utils.c:generate_private_EC_key", "example/util/utils.c:load_private_key", "example/util/utils.c:read_private_key"]}
{"id": "C138", "title": "Callbacks and application data belong to the context they were given for", "statement": "Whatever an application has registered and whatever happened before: an event in a context calls exactly the callback registered last for this event in this context, once, or none if none was registered or it was disabled by a null pointer; a BRSKI request is given to the handler registered last in its context, and answered with EST_ERR_NULL_CALLBACK if there never was one; a handler for BRSKI cannot be taken away, the attempt is refused; the application data read from a context is what was set last for it; what is done with one context never shows in another; misuse without a context changes nothing and is told to the error callback; nothing is ever called that was not registered.", "quantifier": "all histories of registrations, events, requests and errors over any number of contexts", "why_tests_cant": "tests register each callback once in one context and never mix the order of registrations, disabling and events over several contexts", "anchors": ["src/est/est_server.c:est_set_enroll_req_event_cb", "src/est/est_server.c:est_set_enroll_rsp_event_cb", "src/est/est_server.c:est_set_enroll_auth_result_event_cb", "src/est/est_server.c:est_set_endpoint_req_event_cb", "src/est/est_server.c:est_set_brski_voucher_req_cb", "src/est/est_server.c:est_set_brski_voucher_status_cb", "src/est/est_server.c:est_set_brski_enroll_status_cb", "src/est/est_server.c:est_set_est_err_event_cb", "src/est/est.c:est_set_ex_data", "src/est/est.c:est_get_ex_data"]}
{"id": "C139", "title": "The sample proxy does what its command line says and lets in whom it should", "statement": "The sample proxy serves only after it has read trust anchors, its certificate and its key and was told an upstream server that libest took; it asks for the kind of HTTP authentication, the proof of possession, SRP, enhanced certificate authentication, times and ports that the options ask for, the last value counting; arguments are used in full and no memory outside their arrays is read; its callback lets in exactly the users with the configured credentials for the realm announced, and the token sent upstream is the one given.", "quantifier": "all sequences of options, arguments of any length, all answers of libest, OpenSSL and the file system, all parsed Authorization headers", "why_tests_cant": "the tests start the proxy with a handful of fixed command lines, never with arguments as long as the arrays, a missing port, another realm or a refused call", "anchors": ["example/proxy/estproxy.c:main", "example/proxy/estproxy.c:process_http_auth", "example/proxy/estproxy.c:auth_credentials_token_cb", "example/proxy/estproxy.c:process_ssl_srp_auth"]}
{"id": "C140", "title": "The CSR check and the user name of enhanced certificate authentication see the whole subject field", "statement": "perform_enhanced_cert_auth_csr_check reports success exactly if the CSR has the same value as the client's certificate in the manufacturer's subject field (or, for a certificate of the local PKI, in the field of the registered manufacturers), and build_enhanced_cert_auth_header gives the application that value as the user name. This holds whatever bytes the certificate and the CSR put into the field, and neither function reads outside of it.", "quantifier": "all subject names with any number of fields and any bytes in them, all lists of manufacturers and indices, all passwords", "why_tests_cant": "The failing values are encodings no ordinary tool produces: zero bytes, two-byte characters, more than 256 bytes, a second field of the same kind. A test uses short ASCII names.", "anchors": ["src/est/est_enhcd_cert_auth.c:find_subject_field_from_x509_name", "src/est/est_enhcd_cert_auth.c:get_cert_subject_line_field", "src/est/est_enhcd_cert_auth.c:get_csr_subject_line_field", "src/est/est_enhcd_cert_auth.c:perform_enhanced_cert_auth_csr_check", "src/est/est_enhcd_cert_auth.c:build_enhanced_cert_auth_header"]}
{"id": "C141", "title": "Requests and keys are read from the bytes the application names", "statement": "est_read_x509_request and est_load_key give back a request (a key) exactly if the bytes named by the pointer and the length are an encoding of it in the format named, refuse requests of more than 8192 bytes, read nothing else, and leave nothing allocated besides the result.", "quantifier": "all objects in memory, all lengths and formats, all decoders", "why_tests_cant": "The length is signed and checked from one side only; a test passes the length of its file.", "anchors": ["src/est/est.c:est_read_x509_request", "src/est/est.c:est_load_key"]}
