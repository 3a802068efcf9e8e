{
 "claims": [
  {
   "property": "C01",
   "status": "proved",
   "theorems": [
    "Verif.Base64.C01_round_trip",
    "Verif.Base64.C01_round_trip_newlines",
    "Verif.Base64.C01_short_destination"
   ],
   "note": ""
  },
  {
   "property": "C02",
   "status": "partial",
   "theorems": [
    "Verif.Base64.C02_out_of_bounds_iff",
    "Verif.Base64.C02_fits_partial",
    "Verif.Base64.C02_zero_untouched",
    "Verif.Base64.C02_exact_fit_false",
    "Verif.Base64.C02_every_exact_fit_false",
    "Verif.Base64.C02_coap_caller_partial",
    "Verif.Base64.C02_coap_short_request_false"
   ],
   "note": "False of the code: the final NUL is written behind the destination when the text fills it. The exact condition is proved, and that a one, two or four byte CoAP request reaches it."
  },
  {
   "property": "C03",
   "status": "proved",
   "theorems": [
    "Verif.Cbor.C03_no_overrun",
    "Verif.Cbor.C03_payload_parses",
    "Verif.Cbor.C03_sent_iff_fits"
   ],
   "note": ""
  },
  {
   "property": "C04",
   "status": "proved",
   "theorems": [
    "Verif.DtlsTimer.C04_timer_value",
    "Verif.DtlsTimer.C04_timer_capped_monotone",
    "Verif.DtlsTimer.C04_setter_range"
   ],
   "note": ""
  },
  {
   "property": "C05",
   "status": "proved",
   "theorems": [
    "Verif.Coap.C05_table_well_formed",
    "Verif.Coap.C05_full_table_unchanged",
    "Verif.Coap.C05_free_slot_served"
   ],
   "note": "For every bsearch and qsort that meet the C standard."
  },
  {
   "property": "C06",
   "status": "proved",
   "theorems": [
    "Verif.Coap.C06_table_is_map",
    "Verif.Coap.C06_isolation"
   ],
   "note": "Refinement to a bounded map from sessions to records."
  },
  {
   "property": "C07",
   "status": "partial",
   "theorems": [
    "Verif.Coap.C07_same_key_false",
    "Verif.Coap.C07_same_key_v6_false",
    "Verif.Coap.C07_mixed_request_false",
    "Verif.Coap.C07_same_width_partial",
    "Verif.Coap.C07_same_address_partial",
    "Verif.Coap.C07_five_digit_ports_partial"
   ],
   "note": "False of the code: port and address are joined without a separator. Proved for ports with the same number of digits and for equal addresses."
  },
  {
   "property": "C08",
   "status": "proved",
   "theorems": [
    "Verif.Coap.C08_reassembly",
    "Verif.Coap.C08_gap_refused",
    "Verif.Coap.C08_late_first_block"
   ],
   "note": "Payloads up to the 16384 bytes of the buffer; longer ones are C09."
  },
  {
   "property": "C09",
   "status": "partial",
   "theorems": [
    "Verif.Coap.C09_bounded_messages_partial",
    "Verif.Coap.C09_overrun_false",
    "Verif.Coap.C09_reachable_false",
    "Verif.Coap.C09_single_message_false"
   ],
   "note": "False of the code: the bound given to memcpy_s is the size of the data. Proved as long as every message ends inside the buffer."
  },
  {
   "property": "C10",
   "status": "proved",
   "theorems": [
    "Verif.Host.C10_match_iff",
    "Verif.Host.C10_empty",
    "Verif.Host.C10_ip_host"
   ],
   "note": "inet_pton is a parameter."
  },
  {
   "property": "C100",
   "status": "proved",
   "theorems": [
    "Verif.Wire.C100_one_after_the_other",
    "Verif.Wire.C100_every_answer_explained",
    "Verif.Wire.C100_as_if_alone",
    "Verif.Wire.C100_name_carried_over",
    "Verif.Wire.C100_goes_on",
    "Verif.Wire.C100_names_of_this_connection"
   ],
   "note": "For streams on which no read reports an error; a read error inside a body makes the code use a partly filled buffer (C14). That the user name is carried over at all is the defect of C55, shown here on the bytes of two requests."
  },
  {
   "property": "C101",
   "status": "partial",
   "theorems": [
    "Verif.CaVerify.C101_accepted_iff",
    "Verif.CaVerify.C101_chain_partial",
    "Verif.CaVerify.C101_one_bad_refused",
    "Verif.CaVerify.C101_handed_out_partial",
    "Verif.CaVerify.C101_crls_removed",
    "Verif.CaVerify.C101_no_certificate_false",
    "Verif.CaVerify.C101_internal_error_false",
    "Verif.CaVerify.C101_overread_false"
   ],
   "note": "Exact acceptance condition and exactly what is handed out are proved, with OpenSSL's parsing and verification as parameters. False: a message without any certificate is accepted; an internal error of the verification counts as success; taking out CRLs can make the text longer (line breaks), and then zeros are stored with a length behind the buffer."
  },
  {
   "property": "C102",
   "status": "partial",
   "theorems": [
    "Verif.ClientMem.C102_safe_partial",
    "Verif.ClientMem.C102_safe_with_memory_partial",
    "Verif.ClientMem.C102_foreign_blocks_kept_partial",
    "Verif.ClientMem.C102_no_leak_partial",
    "Verif.ClientMem.C102_no_content_false",
    "Verif.ClientMem.C102_double_release_false",
    "Verif.ClientMem.C102_null_parser_false",
    "Verif.ClientMem.C102_private_key_lost_false",
    "Verif.ClientMem.C102_session_lost_false",
    "Verif.ClientMem.C102_enroll_buffers_lost_false",
    "Verif.ClientMem.C102_refused_ciphers_false",
    "Verif.ClientMem.C102_reenroll_false_success",
    "Verif.ClientMem.C102_key_after_failure_partial",
    "Verif.ClientMem.C102_key_generation_failures_partial"
   ],
   "note": "When no PKCS7 comes without content, safety is proved for every pattern of failing allocations without key generation, and with memory available for all calls. Nothing is lost when memory is available, the server resumes sessions and no key generation is asked for. False otherwise, with witnesses: a server that sends a PKCS7 without content makes the client read through NULL; a double release and a use of NULL in key generation when memory is short; the private key and the temporaries of key generation, the references of sessions that are not resumed, and buffers of several error returns are lost. BRSKI calls and SRP are not modelled."
  },
  {
   "property": "C103",
   "status": "partial",
   "theorems": [
    "Verif.ServerMem.C103_safe_partial",
    "Verif.ServerMem.C103_get_safe_partial",
    "Verif.ServerMem.C103_no_leak_partial",
    "Verif.ServerMem.C103_bad_basic_false",
    "Verif.ServerMem.C103_bad_token_false",
    "Verif.ServerMem.C103_digest_twice_false",
    "Verif.ServerMem.C103_eca_csr_false",
    "Verif.ServerMem.C103_ca_buffer_false",
    "Verif.ServerMem.C103_callback_buffer_false",
    "Verif.ServerMem.C103_attributes_false",
    "Verif.ServerMem.C103_body_null_false",
    "Verif.ServerMem.C103_header_null_false",
    "Verif.ServerMem.C103_oid_list_false",
    "Verif.ServerMem.C103_segment_null_false",
    "Verif.ServerMem.C103_name_present"
   ],
   "note": "Safety is proved for all requests when memory is available, and for the GET requests whichever allocations fail; absence of leaks for all clean requests. False otherwise: before authentication any client makes the server lose memory for ever with a Basic credential or token that is not base64 or a Digest header that names a parameter twice; failing allocations of the body, the credentials, a path segment or an OID entry are undefined behaviour. CoAP requests and the connection's own blocks are not modelled."
  },
  {
   "property": "C104",
   "status": "partial",
   "theorems": [
    "Verif.Config.C104_last_call_decides",
    "Verif.Config.C104_pop_unless_disabled",
    "Verif.Config.C104_pop_unless_disabled_keygen",
    "Verif.Config.C104_credentials_unless_waived_partial",
    "Verif.Config.C104_credentials_keygen_partial",
    "Verif.Config.C104_coap_needs_certificate",
    "Verif.Config.C104_attributes_enforced_partial",
    "Verif.Config.C104_default_reenroll_false",
    "Verif.Config.C104_enforcement_lapses_false",
    "Verif.Config.C104_answers_as_configured",
    "Verif.Config.C104_attributes_of_the_callback"
   ],
   "note": "Proved for all sequences of calls, except: re-enrolment and key generation with a malformed Authorization header (or enhanced certificate authentication) need only the certificate; a refused attempt to configure other attributes silently ends the enforcement of the old ones."
  },
  {
   "property": "C105",
   "status": "partial",
   "theorems": [
    "Verif.Sess.C105_only_to_the_named_server",
    "Verif.Sess.C105_credentials_partial",
    "Verif.Sess.C105_set_auth_clears",
    "Verif.Sess.C105_other_server_false",
    "Verif.Sess.C105_requests_name_the_server",
    "Verif.Sess.C105_set_server"
   ],
   "note": "Requests: proved for all sequences. Credentials: proved as long as no other server is named after a challenge; false otherwise (the mode of authentication survives est_client_set_server, so the new server is given the old server's credentials unasked)."
  },
  {
   "property": "C106",
   "status": "partial",
   "theorems": [
    "Verif.Life.C106_sessions",
    "Verif.Life.C106_first_start_serves_partial",
    "Verif.Life.C106_orderly_calls_partial",
    "Verif.Life.C106_restart_false",
    "Verif.Life.C106_failed_start_false",
    "Verif.Life.C106_use_after_stop_false",
    "Verif.Life.C106_lost_false",
    "Verif.Life.C106_coap_proxy_stop_false",
    "Verif.Life.C106_coap_crl_false",
    "Verif.Life.C106_coap_sessions",
    "Verif.Life.C106_destroy_false",
    "Verif.Life.C106_dropped_false",
    "Verif.Life.C106_handle_result_partial",
    "Verif.Life.C106_start_result"
   ],
   "note": "The sessions that are served are proved to be as configured for every sequence of calls. The rest is false of the code: a second start and a start after a failed one have no trusted certificates and no Diffie-Hellman parameters, est_server_stop leaves a pointer to released memory, a second start without a stop loses the first service, est_proxy_stop does not stop a CoAP proxy, and est_enable_crl has no effect with CoAP. What OpenSSL makes of the settings is a model of its own."
  },
  {
   "property": "C107",
   "status": "partial",
   "theorems": [
    "Verif.Cred.C107_intended_partial",
    "Verif.Cred.C107_learns",
    "Verif.Cred.C107_application_decides",
    "Verif.Cred.C107_basic_client_partial",
    "Verif.Cred.C107_token_client_partial",
    "Verif.Cred.C107_digest_client_partial",
    "Verif.Cred.C107_digest_uri_partial",
    "Verif.Cred.C107_refused_call_false",
    "Verif.Cred.C107_long_password_false",
    "Verif.Cred.C107_no_token_false",
    "Verif.Cred.C107_longest_user_false",
    "Verif.Cred.C107_digest_uri_false",
    "Verif.Cred.C107_learns_once",
    "Verif.Cred.C107_never_without",
    "Verif.Cred.C107_no_digest_no_request",
    "Verif.Cred.C107_refused_challenge"
   ],
   "note": "Proved for credentials that fit the buffers on both sides and, for Digest, up to a collision of the hash. False otherwise: a call refused for its password has stored the user name; a password of the callback that is too long is replaced by the empty one and a missing token is sent as an empty one; a user name of 255 characters makes the Digest code read past its buffer; with a path segment the URI of a digest is not that of the request."
  },
  {
   "property": "C108",
   "status": "proved",
   "theorems": [
    "Verif.Wire.C108_answer",
    "Verif.Wire.C108_certificate_is_issued",
    "Verif.Wire.C108_same_as_direct",
    "Verif.Wire.C108_client",
    "Verif.Wire.C108_client_asked",
    "Verif.Wire.C108_enrol_and_copy",
    "Verif.Wire.C108_checked_at_the_end",
    "Verif.Wire.C108_reenroll"
   ],
   "note": "For enrolment and re-enrolment over HTTPS; key generation through a proxy is false of the code (C83). Proved for sendable requests, proxies and servers with usable settings and callbacks whose answers fit, and at most two connections from each proxy for a request, which is all the code makes once the next party has asked for credentials."
  },
  {
   "property": "C109",
   "status": "partial",
   "theorems": [
    "Verif.Config.C109_calls_decide",
    "Verif.Config.C109_application_decides_partial",
    "Verif.Config.C109_keygen_partial",
    "Verif.Config.C109_accepted",
    "Verif.Config.C109_nothing_to_compare_false",
    "Verif.Config.C109_other_field_false",
    "Verif.Config.C109_internal_error_false"
   ],
   "note": "Proved for servers that ask for credentials, with the CSR of a manufacturer's device compared in full. For certificates of the local PKI the CSR check is weaker than stated: it passes if any one manufacturer's field is repeated, and passes without comparing anything once an attempt to register a manufacturer has failed. An internal error of OpenSSL counts as a verified certificate."
  },
  {
   "property": "C11",
   "status": "partial",
   "theorems": [
    "Verif.Host.C11_accepts_iff_partial",
    "Verif.Host.C11_common_name_ignored",
    "Verif.Host.C11_long_address_false",
    "Verif.Host.C11_no_certificate"
   ],
   "note": "False of the code when an address entry of the certificate is longer than the host's address: the comparison reads behind it. Proved for all others."
  },
  {
   "property": "C110",
   "status": "partial",
   "theorems": [
    "Verif.Init.C110_server_init",
    "Verif.Init.C110_proxy_init",
    "Verif.Init.C110_client_init",
    "Verif.Init.C110_server_balanced_partial",
    "Verif.Init.C110_proxy_balanced_partial",
    "Verif.Init.C110_refused_server_false",
    "Verif.Init.C110_unreadable_answer_false",
    "Verif.Init.C110_empty_answer_false",
    "Verif.Init.C110_long_subject_false",
    "Verif.Init.C110_missing_table_false",
    "Verif.Init.C110_length_false"
   ],
   "note": "Acceptance and contents are proved for all arguments and all patterns of failing allocations, for trust anchors whose subjects have at most 254 characters (with 255 the code writes behind a buffer). Nothing is left behind: proved for refusals by the argument checks and for readable input; false for a server whose trust anchors are refused (store and cacerts answer are lost) and for a cacerts text that cannot be read. Also false: a cacerts text without any certificate is accepted, a proxy is returned without its table when memory is short, and a text above 2000000 characters passes the length check with that length."
  },
  {
   "property": "C111",
   "status": "proved",
   "theorems": [
    "Verif.Wire.C111_cacerts",
    "Verif.Wire.C111_csrattrs",
    "Verif.Wire.C111_csrattrs_unchanged",
    "Verif.Wire.C111_csrattrs_pop"
   ],
   "note": "Over HTTPS, for requests that can be sent and arrive and texts that fit an answer (not empty, shorter than 2000000 bytes, no line break at the front: C90 shows the client misreads others)."
  },
  {
   "property": "C112",
   "status": "proved",
   "theorems": [
    "Verif.Wire.C112_report",
    "Verif.Wire.C112_report_password",
    "Verif.Wire.C112_voucher",
    "Verif.Wire.C112_pinned",
    "Verif.Wire.C112_later",
    "Verif.Wire.C112_voucher_password",
    "Verif.Wire.C112_status_header_false"
   ],
   "note": "For requests that fit the client's buffer (C61 says what happens to others) and vouchers that fit an answer. What a voucher must contain is C36, what the texts say is C75, the bounds on exchanges are C38. C112_status_header_false records that the registrar's answer to an accepted report is not a complete HTTP response; the pledge accepts it all the same."
  },
  {
   "property": "C113",
   "status": "partial",
   "theorems": [
    "Verif.Timer.C113_session",
    "Verif.Timer.C113_parts_add_up",
    "Verif.Timer.C113_repeated_false",
    "Verif.Timer.C113_every_end",
    "Verif.Timer.C113_not_switched_on_partial",
    "Verif.Timer.C113_switched_on_false",
    "Verif.Timer.C113_disabled",
    "Verif.Timer.C113_down_time",
    "Verif.Timer.C113_down_time_safe",
    "Verif.Timer.C113_down_time_switched",
    "Verif.Timer.C113_http",
    "Verif.Timer.C113_http_disabled",
    "Verif.Timer.C113_http_not_switched_on_partial",
    "Verif.Timer.C113_http_switched_on_false",
    "Verif.Timer.C113_text"
   ],
   "note": "The lines and their sum are proved for sessions in which each request can be told from the one before (another kind, or a first message that starts over, as a new POST does); false for a GET after a GET of the same kind: the second is timed from the start of the first and its gap is lost (C113_repeated_false). No invalid pointer is printed if timers are not switched on during a session or request; otherwise false. C113_text is for a clock that does not go back."
  },
  {
   "property": "C114",
   "status": "partial",
   "theorems": [
    "Verif.Sock.C114_no_stray",
    "Verif.Sock.C114_closed_partial",
    "Verif.Sock.C114_forward_false",
    "Verif.Sock.C114_voucher_false",
    "Verif.Sock.C114_second_false"
   ],
   "note": "Nothing is closed twice or used after closing: proved for everything. Everything is closed: proved for all operations of a client except voucher requests for which random numbers, the time, memory or the registrar's certificate is missing, and for proxies whose handshake upstream does not fail. Otherwise false: a proxy keeps an SSL object for each failed handshake, a pledge the socket and the SSL object for each such voucher request."
  },
  {
   "property": "C115",
   "status": "partial",
   "theorems": [
    "Verif.Safe.C115_memcpy",
    "Verif.Safe.C115_memmove",
    "Verif.Safe.C115_null_memory",
    "Verif.Safe.C115_null_string",
    "Verif.Safe.C115_memzero",
    "Verif.Safe.C115_memset",
    "Verif.Safe.C115_memcmp",
    "Verif.Safe.C115_strcpy_partial",
    "Verif.Safe.C115_strcpy_false",
    "Verif.Safe.C115_strncpy",
    "Verif.Safe.C115_strcat_partial",
    "Verif.Safe.C115_strcat_false",
    "Verif.Safe.C115_strncat_partial",
    "Verif.Safe.C115_strncat_false",
    "Verif.Safe.C115_strcmp",
    "Verif.Safe.C115_strcasecmp_partial",
    "Verif.Safe.C115_strcasecmp_false",
    "Verif.Safe.C115_span",
    "Verif.Safe.C115_strnlen",
    "Verif.Safe.C115_strnlen_str",
    "Verif.Safe.C115_isdigit_partial",
    "Verif.Safe.C115_isdigit_false",
    "Verif.Safe.C115_strstr",
    "Verif.Safe.C115_strtok_partial",
    "Verif.Safe.C115_strtok_false",
    "Verif.Safe.C115_delims_false"
   ],
   "note": "The memory functions, strncpy_s, strcmp_s, strspn_s, strcspn_s, strnlen_s and strstr_s: proved in full. strcpy_s leaves no zero byte when the text is as long as the buffer or longer, and reports success; strcat_s and strncat_s write behind the buffer; strcasecmp_s compares one character more than asked; strisdigit_s does not look at the size; strtok_s returns the last word twice if the length is that of the buffer and nothing with more than 16 delimiters: each shown by an example, with the property proved for the other inputs. Overlapping objects are not modelled."
  },
  {
   "property": "C116",
   "status": "partial",
   "theorems": [
    "Verif.ProxyMem.C116_safe_partial",
    "Verif.ProxyMem.C116_get_safe_partial",
    "Verif.ProxyMem.C116_no_leak_partial",
    "Verif.ProxyMem.C116_entry_fits",
    "Verif.ProxyMem.C116_no_content_false",
    "Verif.ProxyMem.C116_peer_reference_false",
    "Verif.ProxyMem.C116_handshake_false",
    "Verif.ProxyMem.C116_key_lost_false",
    "Verif.ProxyMem.C116_refused_csr_false",
    "Verif.ProxyMem.C116_bufmem_lost_false",
    "Verif.ProxyMem.C116_attrs_lost_false",
    "Verif.ProxyMem.C116_bufmem_null_false",
    "Verif.ProxyMem.C116_table_null_false",
    "Verif.ProxyMem.C116_keygen_null_false"
   ],
   "note": "When no PKCS7 comes without content, safety is proved for all operations when memory is available, and for GET requests whichever allocations fail, if the table was allocated and need not grow. Nothing is lost: proved for clients without certificate, an upstream server that completes handshakes and resumes sessions, clean credentials, and no forwarded key generation. False otherwise: a PKCS7 without content from the upstream server makes the proxy read through NULL; each request of a client with a certificate leaves a reference to it, each failed upstream handshake of an enrolment an SSL object, an unwritable key generation response the private key; several allocations are used unchecked. CoAP requests are not modelled; threads take turns."
  },
  {
   "property": "C117",
   "status": "partial",
   "theorems": [
    "Verif.Jni.C117_enroll_partial",
    "Verif.Jni.C117_enroll_checked_partial",
    "Verif.Jni.C117_null_refused",
    "Verif.Jni.C117_enroll_no_leak_partial",
    "Verif.Jni.C117_copies_stay_false",
    "Verif.Jni.C117_cacerts_partial",
    "Verif.Jni.C117_cacerts_no_leak_partial",
    "Verif.Jni.C117_csr_partial",
    "Verif.Jni.C117_csr_no_leak_partial",
    "Verif.Jni.C117_limit",
    "Verif.Jni.C117_length_index_false",
    "Verif.Jni.C117_conversion_index_false",
    "Verif.Jni.C117_no_content_false",
    "Verif.Jni.C117_no_extensions_false",
    "Verif.Jni.C117_limit_race_false",
    "Verif.Jni.C117_csr_null_false",
    "Verif.Jni.C117_digest_lost_false",
    "Verif.Jni.C117_srp_dropped_false",
    "Verif.Jni.C117_srp_class_false",
    "Verif.Jni.C117_refused_request",
    "Verif.Jni.C117_csr_null_array_false"
   ],
   "note": "Safety and outcome are proved for every pattern of failing allocations, when the PKCS7 has content, the extensions of an old certificate can be copied, the limit is not raised during the call and create_csr gets no null reference; otherwise memory is misused (shown by examples). False: the copies of the byte arrays, private keys among them, stay allocated after every success (JNI_COMMIT does not release them); the text of the exception for certificates that are too long or cannot be converted is read from outside the error table; a digest context is lost when signing cannot start; SRP is silently left out when memory is short; some failures of a CA certificates request throw the enrolment exception."
  },
  {
   "property": "C118",
   "status": "partial",
   "theorems": [
    "Verif.Asn1.C118_inside",
    "Verif.Asn1.C118_accepted_no_error",
    "Verif.Asn1.C118_each_once_partial",
    "Verif.Asn1.C118_endless_false",
    "Verif.Asn1.C118_server_keeps_busy_false",
    "Verif.Asn1.C118_end_not_reported_false",
    "Verif.Asn1.C118_decode",
    "Verif.Asn1.C118_no_attributes_false",
    "Verif.Asn1.C118_add",
    "Verif.Asn1.C118_cut_short",
    "Verif.Asn1.C118_cut_short_endless_false",
    "Verif.Asn1.C118_bad_base64"
   ],
   "note": "Memory safety, absence of errors and the decoding are proved for everything. Each identifier once and an end: proved for attributes whose encoding ends with an identifier; for all others the loop never ends (proved), because the function reports success without progress, contrary to its description. The sample client also gives up when the server has no attributes."
  },
  {
   "property": "C119",
   "status": "partial",
   "theorems": [
    "Verif.Manual.C119_second_request",
    "Verif.Manual.C119_second_request_list",
    "Verif.Manual.C119_signed_is_own",
    "Verif.Manual.C119_waited_before",
    "Verif.Manual.C119_no_bypass",
    "Verif.Manual.C119_told_to_wait",
    "Verif.Manual.C119_certificate",
    "Verif.Manual.C119_half",
    "Verif.Manual.C119_builds_agree",
    "Verif.Manual.C119_order",
    "Verif.Manual.C119_automatic",
    "Verif.Manual.C119_new_key_waits",
    "Verif.Manual.C119_keygen_never",
    "Verif.Manual.C119_tree_memory",
    "Verif.Manual.C119_list_memory",
    "Verif.Manual.C119_same_client_false",
    "Verif.Manual.C119_failure_uses_approval_false",
    "Verif.Manual.C119_large_answer_false",
    "Verif.Manual.C119_tree_released_false"
   ],
   "note": "Proved for every history that the model defines. Not so in the code: the approval belongs to the key and not to the client, a failing CA uses it up, a key generation is never served because the key is new each time, an answer of 8192 bytes or more is undefined, and the tree build never releases the entries it removes. Overlapping requests (the table is used outside the lock) are not modelled."
  },
  {
   "property": "C12",
   "status": "proved",
   "theorems": [
    "Verif.HttpConn.C12_positive_iff_header",
    "Verif.HttpConn.C12_negative_iff_bad",
    "Verif.HttpConn.C12_stable",
    "Verif.HttpConn.C12_within_buffer",
    "Verif.HttpConn.C12_arrival_independent"
   ],
   "note": ""
  },
  {
   "property": "C120",
   "status": "partial",
   "theorems": [
    "Verif.Wipe.C120_cleanse",
    "Verif.Wipe.C120_cleanse_tail",
    "Verif.Wipe.C120_callback_values",
    "Verif.Wipe.C120_digest_frame",
    "Verif.Wipe.C120_basic_frame",
    "Verif.Wipe.C120_enroll_request",
    "Verif.Wipe.C120_copy_key",
    "Verif.Wipe.C120_client_key_left",
    "Verif.Wipe.C120_key_handed_over",
    "Verif.Wipe.C120_server_credentials",
    "Verif.Wipe.C120_basic_array",
    "Verif.Wipe.C120_server_key",
    "Verif.Wipe.C120_server_key_hidden",
    "Verif.Wipe.C120_server_other_block",
    "Verif.Wipe.C120_coap_key",
    "Verif.Wipe.C120_proxy_key",
    "Verif.Wipe.C120_cleanse_false",
    "Verif.Wipe.C120_basic_frame_false",
    "Verif.Wipe.C120_token_frame_false",
    "Verif.Wipe.C120_other_requests_false",
    "Verif.Wipe.C120_client_key_false",
    "Verif.Wipe.C120_destroy_false",
    "Verif.Wipe.C120_token_array_false",
    "Verif.Wipe.C120_coap_lost_false",
    "Verif.Wipe.C120_coap_partial_false",
    "Verif.Wipe.C120_coap_node_false",
    "Verif.Wipe.C120_proxy_key_false"
   ],
   "note": "Proved for the credentials of the application (within the limits), the Digest code, the enrolment text, the credentials a server has parsed and the key a server makes. Not so in the code: the Basic and token code leave the credentials on the stack, the CSR attributes and BRSKI requests are released with their authentication line, the client releases and loses copies of a key made for it, est_destroy overwrites nothing, and over CoAP and in the proxy a failure at the wrong moment loses the key. Contents inside OpenSSL's structures and the raw HTTP buffers are not modelled."
  },
  {
   "property": "C121",
   "status": "partial",
   "theorems": [
    "Verif.CoapMem.C121_safe_partial",
    "Verif.CoapMem.C121_get_safe_partial",
    "Verif.CoapMem.C121_no_leak_partial",
    "Verif.CoapMem.C121_incomplete",
    "Verif.CoapMem.C121_hex_null_false",
    "Verif.CoapMem.C121_cbor_null_false",
    "Verif.CoapMem.C121_result_lost_false",
    "Verif.CoapMem.C121_bad_attributes_false",
    "Verif.CoapMem.C121_bad_cacerts_false",
    "Verif.CoapMem.C121_callback_fresh_false",
    "Verif.CoapMem.C121_callback_released_false",
    "Verif.CoapMem.C121_lost_false"
   ],
   "note": "Proved for a server without a callback for the CA certificates: no misuse while memory is available (requests without body: whichever allocations fail), nothing lost by clean requests, and incomplete requests lose nothing whatever fails. Proved false: null pointer writes for the log text and the CBOR array, certificate and key lost, BIOs lost for texts that are no base64, and the callback for the CA certificates, whose buffer est_destroy releases."
  },
  {
   "property": "C122",
   "status": "partial",
   "theorems": [
    "Verif.BrskiMem.C122_safe_partial",
    "Verif.BrskiMem.C122_safe_with_memory_partial",
    "Verif.BrskiMem.C122_foreign_blocks_kept_partial",
    "Verif.BrskiMem.C122_no_leak_partial",
    "Verif.BrskiMem.C122_one_failure_partial",
    "Verif.BrskiMem.C122_accepted_false",
    "Verif.BrskiMem.C122_refused_false",
    "Verif.BrskiMem.C122_grows_false",
    "Verif.BrskiMem.C122_connection_lost_false",
    "Verif.BrskiMem.C122_other_type_false",
    "Verif.BrskiMem.C122_no_serial_false"
   ],
   "note": "Proved: no misuse whichever allocations fail (vouchers with content of type data, certificates with a serial number, no key generation), nothing foreign released, and nothing lost while no answer is a PKCS7. Proved false: every voucher that is a PKCS7, accepted or refused, loses two blocks; failing random bytes, clock or certificate conversion lose the connection; a voucher of the content type of RFC 8366 is read as a structure of another type; a missing serial number can print the null pointer."
  },
  {
   "property": "C123",
   "status": "partial",
   "theorems": [
    "Verif.Io.C123_server_time_out",
    "Verif.Io.C123_server_wait_decided",
    "Verif.Io.C123_server_wait_bounded_partial",
    "Verif.Io.C123_stop_is_honoured",
    "Verif.Io.C123_signals_false",
    "Verif.Io.C123_server_body_exact",
    "Verif.Io.C123_body_refines",
    "Verif.Io.C123_header_refines",
    "Verif.Io.C123_server_body_time_partial",
    "Verif.Io.C123_slow_body_false",
    "Verif.Io.C123_incomplete_record_false",
    "Verif.Io.C123_written_exact",
    "Verif.Io.C123_written_all",
    "Verif.Io.C123_written_in_time",
    "Verif.Io.C123_write_zero_false",
    "Verif.Io.C123_printed_text_partial",
    "Verif.Io.C123_printed_text_false",
    "Verif.Io.C123_client_prefix",
    "Verif.Io.C123_client_whole_response",
    "Verif.Io.C123_client_too_long",
    "Verif.Io.C123_full_buffer_false",
    "Verif.Io.C123_client_success_means",
    "Verif.Io.C123_client_silent",
    "Verif.Io.C123_client_time_partial",
    "Verif.Io.C123_slow_server_false",
    "Verif.Io.C123_keep_alive_false",
    "Verif.Io.C123_client_signal_false",
    "Verif.Io.C123_cut_connection_false",
    "Verif.Io.C123_client_stuck_false"
   ],
   "note": "Proved: exactness of reading and writing for every fragmentation, the time-out of a single wait (exactly 4t+1 quiet polls on the server), the stop flag, success only without failures, bounds in the number of bytes, and that the loops refine the connection loop of C12-C14 and C51. Proved false: signals delay or shorten the time-out on the server and end the exchange on the client; the time-out counts anew for every byte; a partial TLS record or a write of zero bytes hangs the call; a complete response over a connection that is kept open is thrown away; a cut one counts as complete; a text of exactly 8192 bytes loses its last byte; SSL_peek on a full buffer has no time-out."
  },
  {
   "property": "C124",
   "status": "partial",
   "theorems": [
    "Verif.Thread.C124_attributes_one_by_one",
    "Verif.Thread.C124_attributes_interleaved_partial",
    "Verif.Thread.C124_not_asked_false",
    "Verif.Thread.C124_asked_twice_false",
    "Verif.Thread.C124_proxy_known_threads_partial",
    "Verif.Thread.C124_proxy_alone",
    "Verif.Thread.C124_proxy_other_context_false",
    "Verif.Thread.C124_proxy_same_entry_false",
    "Verif.Thread.C124_proxy_released_table_false",
    "Verif.Thread.C124_manual_never_first",
    "Verif.Thread.C124_manual_twice_false",
    "Verif.Thread.C124_manual_lost_false"
   ],
   "note": "Proved for all schedules: correct attributes if no callback returns challengePassword itself, own contexts for all threads the proxy already knows, no signature without an earlier waiting request; and for calls without interruption: correct attributes in every order, and the table behaves as in C40. Proved false: a client is not asked for challengePassword or asked twice; a proxy thread gets the context of another one, two new threads take the same entry, and the table is released under a thread; one approval lets two requests through and a waiting request is lost."
  },
  {
   "property": "C125",
   "status": "partial",
   "theorems": [
    "Verif.Log.C125_delivered",
    "Verif.Log.C125_dropped",
    "Verif.Log.C125_error_announced",
    "Verif.Log.C125_last_setting",
    "Verif.Log.C125_quieter",
    "Verif.Log.C125_ssl_errors_partial",
    "Verif.Log.C125_ssl_errors_default",
    "Verif.Log.C125_no_errors_false",
    "Verif.Log.C125_not_terminated_false",
    "Verif.Log.C125_backtrace_alone_false",
    "Verif.Log.C125_no_symbols_false",
    "Verif.Log.C125_certificates_partial",
    "Verif.Log.C125_certificates_false"
   ],
   "note": "Proved: which messages reach which logger and callback, for every sequence of calls; that a quieter level only leaves out messages; and that the default level is safe. Proved false: ossl_dump_ssl_errors prints a null pointer when there is no error and a text without NUL when there is one; the check of CA certificates prints a pointer to an X509_NAME as a string with level INFO, and with WARN if one does not verify; backtraces are logged without their message, and backtrace_symbols is not checked."
  },
  {
   "property": "C126",
   "status": "partial",
   "theorems": [
    "Verif.Queue.C126_at_most_once",
    "Verif.Queue.C126_closed_once",
    "Verif.Queue.C126_nothing_forgotten",
    "Verif.Queue.C126_first_come",
    "Verif.Queue.C126_counters",
    "Verif.Queue.C126_mutual_exclusion",
    "Verif.Queue.C126_no_deadlock",
    "Verif.Queue.C126_context_alive",
    "Verif.Queue.C126_stopped",
    "Verif.Queue.C126_shutdown_partial",
    "Verif.Queue.C126_lost_wakeup_false",
    "Verif.Queue.C126_left_open_false",
    "Verif.Queue.C126_use_after_return_false"
   ],
   "note": "Proved for every number of workers and every schedule: nothing is handed over twice or closed without being handed over, nothing is forgotten, the order is kept, the counters stay in range, the mutex excludes, and until the server is told to stop every accepted connection can still be served. Proved for stopping: when the server says it has stopped all workers have returned and what was handed over is closed, and it can come to its end if no worker is about to wait at the broadcast. Proved false: a worker misses the broadcast and the server never ends; accepted connections are left open in three ways; a worker hands over a connection after start_simple_server has returned and the context was released."
  },
  {
   "property": "C127",
   "status": "partial",
   "theorems": [
    "Verif.SampleCa.C127_content",
    "Verif.SampleCa.C127_strings",
    "Verif.SampleCa.C127_odd_serial",
    "Verif.SampleCa.C127_extensions",
    "Verif.SampleCa.C127_serials_increase",
    "Verif.SampleCa.C127_serials_unique",
    "Verif.SampleCa.C127_subjects_unique",
    "Verif.SampleCa.C127_goes_on",
    "Verif.SampleCa.C127_survives",
    "Verif.SampleCa.C127_serials_unique_false",
    "Verif.SampleCa.C127_empty_subject_false",
    "Verif.SampleCa.C127_long_serial_false",
    "Verif.SampleCa.C127_stuck_false"
   ],
   "note": "content, kinds of strings, extensions, fresh serial numbers (if either file is written whole), unique subjects (if the index is written whole), progress and survival of noticed failures are proved; refuted: repeated serial numbers after unnoticed short writes, comparison with NULL after an empty subject, overrun by a long serial number, no serial file after a failed rename or a kill"
  },
  {
   "property": "C128",
   "status": "partial",
   "theorems": [
    "Verif.SrvBrski.C128_print_partial",
    "Verif.SrvBrski.C128_print_json",
    "Verif.SrvBrski.C128_refused",
    "Verif.SrvBrski.C128_status_any_partial",
    "Verif.SrvBrski.C128_status_success",
    "Verif.SrvBrski.C128_status_object_partial",
    "Verif.SrvBrski.C128_voucher_status",
    "Verif.SrvBrski.C128_enroll_status",
    "Verif.SrvBrski.C128_voucher_partial",
    "Verif.SrvBrski.C128_signed",
    "Verif.SrvBrski.C128_client_request",
    "Verif.SrvBrski.C128_round_trip_partial",
    "Verif.SrvBrski.C128_memory",
    "Verif.SrvBrski.C128_print_false",
    "Verif.SrvBrski.C128_reason_false",
    "Verif.SrvBrski.C128_status_false",
    "Verif.SrvBrski.C128_last_token_false",
    "Verif.SrvBrski.C128_voucher_false",
    "Verif.SrvBrski.C128_no_certificate_false",
    "Verif.SrvBrski.C128_nonce_false",
    "Verif.SrvBrski.C128_unsigned_false",
    "Verif.SrvBrski.C128_unsigned_text",
    "Verif.SrvBrski.C128_long_voucher_false",
    "Verif.SrvBrski.C128_status_no_memory",
    "Verif.SrvBrski.C128_forged_serial_false",
    "Verif.SrvBrski.C128_no_body_false"
   ],
   "note": "Proved: the decision on every status message with fewer than 100 tokens, the fate of the client's own messages, the voucher for every proper request and its acceptance by the client if the server's certificates end in a NUL, that nothing is handed out unsigned, and that blocks are neither lost nor freed twice. Refuted: the certificates have no NUL, so every proper request reads behind the block; status, reason, nonce and registrar certificate overrun fixed arrays; the client's longest reason is one byte too long; tokens behind the array are read; a NULL peer certificate or body is used; without a MASA key no request succeeds; an object as nonce puts another serial number into the signed voucher."
  },
  {
   "property": "C129",
   "status": "partial",
   "theorems": [
    "Verif.SrvAuth.C129_starts",
    "Verif.SrvAuth.C129_options",
    "Verif.SrvAuth.C129_values",
    "Verif.SrvAuth.C129_basic",
    "Verif.SrvAuth.C129_basic_text",
    "Verif.SrvAuth.C129_token",
    "Verif.SrvAuth.C129_digest",
    "Verif.SrvAuth.C129_let_in_partial",
    "Verif.SrvAuth.C129_known_let_in",
    "Verif.SrvAuth.C129_client_basic_partial",
    "Verif.SrvAuth.C129_client_token_partial",
    "Verif.SrvAuth.C129_client_digest_partial",
    "Verif.SrvAuth.C129_safe_partial",
    "Verif.SrvAuth.C129_null",
    "Verif.SrvAuth.C129_srp",
    "Verif.SrvAuth.C129_subject_partial",
    "Verif.SrvAuth.C129_csrattrs_env",
    "Verif.SrvAuth.C129_token_cut_false",
    "Verif.SrvAuth.C129_no_response_false",
    "Verif.SrvAuth.C129_replay_false",
    "Verif.SrvAuth.C129_long_response_false",
    "Verif.SrvAuth.C129_eca_header_false",
    "Verif.SrvAuth.C129_token_label_false",
    "Verif.SrvAuth.C129_srp_leak_false",
    "Verif.SrvAuth.C129_subject_false",
    "Verif.SrvAuth.C129_no_subject_false",
    "Verif.SrvAuth.C129_csrattrs_end_false",
    "Verif.SrvAuth.C129_csrattrs_default_false"
   ],
   "note": "Proved: what the options lead to, exactly which Basic, Bearer and Digest headers pass, that enrolment needs such a header (or a verified certificate for 127.0.0.1 with enhanced certificate authentication), and the outcome for a client of this library in all three schemes. Refuted: a Digest header without response reads through NULL; any nonce is accepted; a response may go on after 32 characters; with enhanced certificate authentication a client without certificate passes by sending the certificate's name and the fixed password; a token over 512 characters is cut; the secret token is printed as the received one; a long subject writes behind an array, an empty one is copied from NULL; the CSR attributes of the environment have no NUL."
  },
  {
   "property": "C13",
   "status": "partial",
   "theorems": [
    "Verif.HttpConn.C13_buffer_bound",
    "Verif.HttpConn.C13_discard_within_buffer",
    "Verif.HttpConn.C13_requests_partition_stream_partial",
    "Verif.HttpConn.C13_discard_overflow_false",
    "Verif.HttpConn.C13_body_taken_for_request_false"
   ],
   "note": "False of the code: int64 overflow when Content-Length is INT64_MAX, and a failed body read leaves the rest of the body to be parsed as a new request. Proved: buffer bounds always, and exact partition of the stream as long as no read fails."
  },
  {
   "property": "C130",
   "status": "partial",
   "theorems": [
    "Verif.SampleCli.C130_set_up",
    "Verif.SampleCli.C130_context",
    "Verif.SampleCli.C130_other_ends",
    "Verif.SampleCli.C130_wanted",
    "Verif.SampleCli.C130_talk",
    "Verif.SampleCli.C130_at_most_twice",
    "Verif.SampleCli.C130_waits_false",
    "Verif.SampleCli.C130_pop_partial",
    "Verif.SampleCli.C130_pop_false",
    "Verif.SampleCli.C130_common_name_false",
    "Verif.SampleCli.C130_files_partial",
    "Verif.SampleCli.C130_files_false",
    "Verif.SampleCli.C130_names_partial",
    "Verif.SampleCli.C130_names_false",
    "Verif.SampleCli.C130_reported",
    "Verif.SampleCli.C130_silent_partial",
    "Verif.SampleCli.C130_silent_false",
    "Verif.SampleCli.C130_key_lost_false",
    "Verif.SampleCli.C130_ca_then_enrol_false",
    "Verif.SampleCli.C130_thread",
    "Verif.SampleCli.C130_csr_freed",
    "Verif.SampleCli.C130_req_freed_false",
    "Verif.SampleCli.C130_verify",
    "Verif.SampleCli.C130_token_memory",
    "Verif.SampleCli.C130_token_partial",
    "Verif.SampleCli.C130_token_other",
    "Verif.SampleCli.C130_token_false",
    "Verif.SampleCli.C130_password_partial",
    "Verif.SampleCli.C130_password_false"
   ],
   "note": "Proved: set-up, one context per round, requests only as asked for, the exact talk with the server including the wait, what is in each file and when names differ, that a report is true and that silence means success of the last operation, the freeing of a CSR from a file, the callbacks, and the rounds of a thread. Refuted: a retry date more than two minutes away, or none, leads to a second request at once; a failed copy stores uninitialized memory, also as a private key and without a report; failures of earlier operations are not reported; -z and --common-name are ignored with -a; after CA certificates were copied the library refuses every enrolment, so -g -e cannot work; a long directory name makes all files one; a request made by the client is never freed; an empty token gives success and a null pointer."
  },
  {
   "property": "C131",
   "status": "partial",
   "theorems": [
    "Verif.SampleArgs.C131_values",
    "Verif.SampleArgs.C131_nonsense",
    "Verif.SampleArgs.C131_accepted",
    "Verif.SampleArgs.C131_reenroll_csr_partial",
    "Verif.SampleArgs.C131_reenroll_csr_false",
    "Verif.SampleArgs.C131_limits",
    "Verif.SampleArgs.C131_numbers",
    "Verif.SampleArgs.C131_threads_false",
    "Verif.SampleArgs.C131_trust_partial",
    "Verif.SampleArgs.C131_trust_false",
    "Verif.SampleArgs.C131_trust_later_false",
    "Verif.SampleArgs.C131_key",
    "Verif.SampleArgs.C131_keygen_false",
    "Verif.SampleArgs.C131_password_false",
    "Verif.SampleArgs.C131_long_false",
    "Verif.SampleArgs.C131_long_server_false",
    "Verif.SampleArgs.C131_long_name_false",
    "Verif.SampleArgs.C131_socks_false",
    "Verif.SampleArgs.C131_requests",
    "Verif.SampleArgs.C131_options",
    "Verif.SampleArgs.C131_ident",
    "Verif.SampleArgs.C131_typed",
    "Verif.SampleArgs.C131_typed_false"
   ],
   "note": "That each setting is that of the last option of its kind, that nonsense is refused and the rest accepted, the limits, the key and the way from options to requests: proved in full. False, with the part that holds proved beside it: a trust anchor whose file name begins with `no` is not used and the client runs without one; re-enrolment with a CSR is refused only if the name of the file begins with an odd byte; SOCKS4A cannot be chosen; strings as long as their array are read behind its end; key generation by the server without a key of one's own fails; an empty password makes the program loop; without OpenSSL's old thread support `-t` does nothing. What is printed and getopt_long itself (that it takes the command line apart into options) are not modelled."
  },
  {
   "property": "C132",
   "status": "partial",
   "theorems": [
    "Verif.Subject.C132_reads",
    "Verif.Subject.C132_refuses",
    "Verif.Subject.C132_unique",
    "Verif.Subject.C132_written",
    "Verif.Subject.C132_round_trip",
    "Verif.Subject.C132_join_partial",
    "Verif.Subject.C132_join_false",
    "Verif.Subject.C132_no_value_false",
    "Verif.Subject.C132_safe_partial",
    "Verif.Subject.C132_flags_false",
    "Verif.Subject.C132_freed_partial",
    "Verif.Subject.C132_freed_false",
    "Verif.Subject.C132_memory"
   ],
   "note": "Reading, refusing, uniqueness and round trip: proved in full. False: an element joined with + to one that is left out gets into the relative name before that (proved to be right otherwise); a last element without a value makes the whole name refused; the block of flags is used without a check that there is memory for it (safe otherwise) and is never given back (the other three are, once each). How OpenSSL stores the name is modelled by appending."
  },
  {
   "property": "C133",
   "status": "partial",
   "theorems": [
    "Verif.GetOpt.C133_reads",
    "Verif.GetOpt.C133_unique",
    "Verif.GetOpt.C133_safe",
    "Verif.GetOpt.C133_clear_partial",
    "Verif.GetOpt.C133_abbreviation_false",
    "Verif.GetOpt.C133_no_name_false",
    "Verif.GetOpt.C133_argument_false",
    "Verif.GetOpt.C133_minus_false",
    "Verif.GetOpt.C133_optional",
    "Verif.GetOpt.C133_optional_false",
    "Verif.GetOpt.C133_keypass_false",
    "Verif.GetOpt.C133_client"
   ],
   "note": "Proved in full: the usual ways of writing are understood, with one meaning; no read outside of the words and an end of the loop for every command line; the sample client's threads find what the words say. That nothing else is understood is false (an abbreviation of several names is the first of them, an empty name is the first of all, an argument for an option without one is ignored, a minus sign among letters ends the options silently, an optional argument is taken from the next word); partial: every line of clear words is written in a usual way or has a reported mistake. --keypass_stdin is declared with an argument although its usage has none."
  },
  {
   "property": "C134",
   "status": "partial",
   "theorems": [
    "Verif.Date.C134_calendar",
    "Verif.Date.C134_rfc1123",
    "Verif.Date.C134_offset_partial",
    "Verif.Date.C134_offset_false",
    "Verif.Date.C134_rfc850_partial",
    "Verif.Date.C134_rfc850_false",
    "Verif.Date.C134_asctime",
    "Verif.Date.C134_safe_partial",
    "Verif.Date.C134_safe_false",
    "Verif.Date.C134_fits",
    "Verif.Date.C134_late_false",
    "Verif.Date.C134_exists_false",
    "Verif.Date.C134_zero_false",
    "Verif.Date.C134_negative_false",
    "Verif.Date.C134_weekday_false",
    "Verif.Date.C134_letters_false",
    "Verif.Date.C134_rest_false",
    "Verif.Date.C134_year_first_false",
    "Verif.Date.C134_range",
    "Verif.Date.C134_replaced",
    "Verif.Date.C134_caller",
    "Verif.Date.C134_stored_partial",
    "Verif.Date.C134_reported_false",
    "Verif.Date.C134_unparsed_false",
    "Verif.Date.C134_caller_safe_false"
   ],
   "note": "Proved in full: the calendar; the preferred form and the form of asctime for every date (up to 2037 as the library is compiled, because SIZEOF_TIME_T is defined nowhere); times reported fit into 32 bits. The form of RFC 850 holds from 1971 to 2070 (1970 is read as 2070); offsets hold but for one second in 2^32 that is taken for an error of my_timegm. False: a time without two digits in each place moves the pointer behind the end of the text (safe if each colon has two digits on both sides); days that do not exist, day zero, negative minutes, wrong days of the week and text behind the sixth part are accepted; zone letters have the wrong sign; the caller stores the date but reports an invalid value, and with or without dates the result and the delay are the same. The code is compiled only with RETRY_AFTER_DELAY_TIME_SUPPORT, and then uses names that are not declared there."
  },
  {
   "property": "C135",
   "status": "partial",
   "theorems": [
    "Verif.CliTls.C135_context",
    "Verif.CliTls.C135_all_or_nothing",
    "Verif.CliTls.C135_suites",
    "Verif.CliTls.C135_names",
    "Verif.CliTls.C135_server",
    "Verif.CliTls.C135_exclusive",
    "Verif.CliTls.C135_defined",
    "Verif.CliTls.C135_authentic",
    "Verif.CliTls.C135_unchanged_partial",
    "Verif.CliTls.C135_unchanged_false",
    "Verif.CliTls.C135_brski_false",
    "Verif.CliTls.C135_srp_cert"
   ],
   "note": "Proved except that a failed call changes nothing, which is false: SRP is turned on and the ciphers are replaced before the user and the password are accepted. A call with wrong parameters does change nothing. That BRSKI mode turns verification off, as its comment says, is false as well (in the safe direction). OpenSSL's keeping to the rules for suites is assumed."
  },
  {
   "property": "C136",
   "status": "partial",
   "theorems": [
    "Verif.CoapStart.C136_listens_partial",
    "Verif.CoapStart.C136_mutual",
    "Verif.CoapStart.C136_listens_false",
    "Verif.CoapStart.C136_revoked_false",
    "Verif.CoapStart.C136_dtls_false",
    "Verif.CoapStart.C136_port",
    "Verif.CoapStart.C136_resources",
    "Verif.CoapStart.C136_balanced_partial",
    "Verif.CoapStart.C136_restart_false",
    "Verif.CoapStart.C136_socket_false",
    "Verif.CoapStart.C136_failed_partial",
    "Verif.CoapStart.C136_failed_false",
    "Verif.CoapStart.C136_start_iff",
    "Verif.CoapStart.C136_request"
   ],
   "note": "Proved for internet addresses that fit and a libcoap with DTLS, and for histories in which a server is started only when none runs and requests come with the server's own socket; otherwise false, with witnesses: success without an endpoint, a lost context, a lost socket. A failed start leaves the port set."
  },
  {
   "property": "C137",
   "status": "partial",
   "theorems": [
    "Verif.Util.C137_read_partial",
    "Verif.Util.C137_missing",
    "Verif.Util.C137_roundtrip",
    "Verif.Util.C137_write_false",
    "Verif.Util.C137_unopened",
    "Verif.Util.C137_empty_false",
    "Verif.Util.C137_big_false",
    "Verif.Util.C137_overflow_false",
    "Verif.Util.C137_block",
    "Verif.Util.C137_rsa",
    "Verif.Util.C137_ec_partial",
    "Verif.Util.C137_ec_false",
    "Verif.Util.C137_ends_partial",
    "Verif.Util.C137_endless_false",
    "Verif.Util.C137_load",
    "Verif.Util.C137_file_false"
   ],
   "note": "Reading is right for files of 1 to 2^31-2 bytes; empty files, one size below 2 GB and files above 4 GB refute it. RSA keys: proved. EC keys: usable, but the group (and after an error the key) is left. The loop for a passphrase need not end if generating fails."
  },
  {
   "property": "C138",
   "status": "proved",
   "theorems": [
    "Verif.Hook.C138_event",
    "Verif.Hook.C138_brski",
    "Verif.Hook.C138_brski_stays",
    "Verif.Hook.C138_brski_refused",
    "Verif.Hook.C138_brski_taken",
    "Verif.Hook.C138_event_registered",
    "Verif.Hook.C138_error",
    "Verif.Hook.C138_silent",
    "Verif.Hook.C138_data",
    "Verif.Hook.C138_data_set",
    "Verif.Hook.C138_separate",
    "Verif.Hook.C138_passive",
    "Verif.Hook.C138_no_stranger"
   ],
   "note": "Proved for all histories. The error callback is one for the whole program, not one per context, and level 0 of the logger silences it. Backtraces are taken to be off."
  },
  {
   "property": "C139",
   "status": "partial",
   "theorems": [
    "Verif.PxSample.C139_serves",
    "Verif.PxSample.C139_calls",
    "Verif.PxSample.C139_mode",
    "Verif.PxSample.C139_texts_partial",
    "Verif.PxSample.C139_texts_false",
    "Verif.PxSample.C139_server_false",
    "Verif.PxSample.C139_basic_false",
    "Verif.PxSample.C139_truststore_false",
    "Verif.PxSample.C139_eca",
    "Verif.PxSample.C139_password",
    "Verif.PxSample.C139_auth",
    "Verif.PxSample.C139_let_in",
    "Verif.PxSample.C139_token_false",
    "Verif.PxSample.C139_token_partial",
    "Verif.PxSample.C139_realm_false",
    "Verif.PxSample.C139_realm_partial",
    "Verif.PxSample.C139_response_false",
    "Verif.PxSample.C139_upstream",
    "Verif.PxSample.C139_upstream_false",
    "Verif.PxSample.C139_srp",
    "Verif.PxSample.C139_wait",
    "Verif.PxSample.C139_long_password_false",
    "Verif.PxSample.C139_manufacturer",
    "Verif.PxSample.C139_wait_false",
    "Verif.PxSample.C139_wait_iff"
   ],
   "note": "Proved: what is read before serving, which calls are made, who is let in. False, with witnesses: the refusal of the upstream server (for example without a port) is not looked at; arguments as long as their arrays are read beyond them; -b is not accepted; --enhcd_cert_truststore is forgotten; Digest works for one realm only; a Digest header without a response is compared through a null pointer; an empty upstream token is called a success."
  },
  {
   "property": "C14",
   "status": "proved",
   "theorems": [
    "Verif.HttpConn.C14_body_prefix",
    "Verif.HttpConn.C14_complete_read"
   ],
   "note": ""
  },
  {
   "property": "C140",
   "status": "partial",
   "theorems": [
    "Verif.SubjField.C140_texts",
    "Verif.SubjField.C140_safe",
    "Verif.SubjField.C140_device_partial",
    "Verif.SubjField.C140_local_partial",
    "Verif.SubjField.C140_user_partial",
    "Verif.SubjField.C140_absent",
    "Verif.SubjField.C140_arguments",
    "Verif.SubjField.C140_zero_byte_false",
    "Verif.SubjField.C140_wide_false",
    "Verif.SubjField.C140_long_false",
    "Verif.SubjField.C140_second_false"
   ],
   "note": "Proved: for values without zero bytes, not empty and of at most 256 bytes the check passes exactly for equal first values (for certificates of the local PKI if all manufacturers use one field), the user name is the value, nothing is read out of bounds, and the check over bytes is the one over texts of C109. False: bytes behind a zero byte or behind the 256th are not compared; all names written as BMPString count as the empty name; a second value of the field in the CSR is not looked at."
  },
  {
   "property": "C141",
   "status": "partial",
   "theorems": [
    "Verif.Reader.C141_request_partial",
    "Verif.Reader.C141_key_partial",
    "Verif.Reader.C141_balanced",
    "Verif.Reader.C141_roundtrip",
    "Verif.Reader.C141_limit_false",
    "Verif.Reader.C141_negative_false",
    "Verif.Reader.C141_cut_false"
   ],
   "note": "Proved for lengths from 0 to the size of the object. False for negative lengths, which pass the check and make OpenSSL look for a zero byte: the limit of 8192 bytes does not hold, binary requests are cut off, and without a zero byte the object is read behind its end."
  },
  {
   "property": "C15",
   "status": "proved",
   "theorems": [
    "Verif.Url.C15_decode_inverts_encoding",
    "Verif.Url.C15_decode_bounds",
    "Verif.Url.C15_decode_in_place_succeeds",
    "Verif.Url.C15_decode_any_text"
   ],
   "note": ""
  },
  {
   "property": "C16",
   "status": "proved",
   "theorems": [
    "Verif.Url.C16_path_is_clean",
    "Verif.Url.C16_clean_unchanged",
    "Verif.Url.C16_idempotent",
    "Verif.Url.C16_only_deletes"
   ],
   "note": ""
  },
  {
   "property": "C17",
   "status": "proved",
   "theorems": [
    "Verif.EstUri.C17_exact_paths",
    "Verif.EstUri.C17_others_rejected",
    "Verif.EstUri.C17_paths_distinct"
   ],
   "note": ""
  },
  {
   "property": "C18",
   "status": "proved",
   "theorems": [
    "Verif.HttpHdr.C18_keep_alive"
   ],
   "note": ""
  },
  {
   "property": "C19",
   "status": "partial",
   "theorems": [
    "Verif.Server.C19_authorised_only_with_evidence",
    "Verif.Server.C19_bad_certificate_refused",
    "Verif.Server.C19_http_auth_enforced_partial",
    "Verif.Server.C19_certificate_alone_false"
   ],
   "note": "Authorised only with evidence: proved. HTTP authentication always enforced: false of the code (malformed header on re-enrol or key generation); proved for the rest."
  },
  {
   "property": "C20",
   "status": "proved",
   "theorems": [
    "Verif.Server.C20_ca_only_after_checks",
    "Verif.Server.C20_callback_of_the_operation"
   ],
   "note": "The strength of the proof-of-possession check is C22, of the attribute check C23."
  },
  {
   "property": "C21",
   "status": "proved",
   "theorems": [
    "Verif.Server.C21_only_ca_output_sent",
    "Verif.Server.C21_answers"
   ],
   "note": ""
  },
  {
   "property": "C22",
   "status": "partial",
   "theorems": [
    "Verif.Server.C22_accepts_only_own_id_partial",
    "Verif.Server.C22_exact_for_equal_length_partial",
    "Verif.Server.C22_absent",
    "Verif.Server.C22_no_id_rejects",
    "Verif.Server.C22_extended_password_false",
    "Verif.Server.C22_short_password_undefined_false",
    "Verif.Server.C22_malformed_attribute_undefined_false"
   ],
   "note": "False of the code: only a prefix is compared, and short or malformed attributes are read out of bounds. Exact for attributes of equal length."
  },
  {
   "property": "C23",
   "status": "partial",
   "theorems": [
    "Verif.Asn1.C23_by_text_partial",
    "Verif.Asn1.C23_exact_partial",
    "Verif.Asn1.C23_enrol_partial",
    "Verif.Asn1.C23_attributes_inside",
    "Verif.Asn1.C23_oversize",
    "Verif.Asn1.C23_long_oid_false",
    "Verif.Asn1.C23_reads_behind_false",
    "Verif.Asn1.C23_large_with_pop_false"
   ],
   "note": "Proved for DER encoded attributes up to 1024 bytes and DER encoded CSRs whose OID texts are distinct in 127 characters. False for longer OIDs (confused), for CSRs with an indefinite length inside a definite one (reads behind the CSR) and for attribute lists of more than 1013 bytes extended by challengePassword (no CSR passes)."
  },
  {
   "property": "C24",
   "status": "proved",
   "theorems": [
    "Verif.ClientResp.C24_error_round_trip",
    "Verif.ClientResp.C24_success_only_for_200",
    "Verif.ClientResp.C25_server_retry"
   ],
   "note": "Operations other than key generation, whose response has its own parser."
  },
  {
   "property": "C25",
   "status": "proved",
   "theorems": [
    "Verif.ClientResp.C25_retry_after",
    "Verif.ClientResp.C25_server_retry",
    "Verif.ClientResp.C25_only_usable_values"
   ],
   "note": "At most 16 headers, the limit of the client's parser."
  },
  {
   "property": "C26",
   "status": "partial",
   "theorems": [
    "Verif.Flow.C26_at_most_two",
    "Verif.Flow.C26_credentials_only_if_asked_partial",
    "Verif.Flow.C26_volunteered_false"
   ],
   "note": "The bound of two requests and the reason for the second are proved for all five enrolment operations; over any history credentials need the Basic hint or a challenge. That the challenge must have come in the same operation is refuted: a 401 to a cacerts (or csrattrs, or earlier CSR enrolment) request makes the next enrolment volunteer credentials."
  },
  {
   "property": "C27",
   "status": "partial",
   "theorems": [
    "Verif.Flow.C27_enroll_resets_partial",
    "Verif.Flow.C27_enroll_csr_false",
    "Verif.Flow.C27_keygen_csr_false",
    "Verif.Flow.C27_leaked_mode_no_retry",
    "Verif.Flow.C27_reenroll_false",
    "Verif.Voucher.C27_status_mode"
   ],
   "note": "Holds for est_client_enroll, server_keygen_enroll and provision_cert; refuted with runs for reenroll, enroll_csr and server_keygen_enroll_csr. The consequence (no second attempt) is proved."
  },
  {
   "property": "C28",
   "status": "partial",
   "theorems": [
    "Verif.ClientResp.C28_complete_response_accepted",
    "Verif.ClientResp.C28_body_complete_and_typed_partial",
    "Verif.ClientResp.C28_many_headers_false",
    "Verif.ClientResp.C28_leading_newline_refused",
    "Verif.Voucher.C28_voucher_size"
   ],
   "note": "False of the code with more than 16 headers: the remaining headers count as body. Proved up to 16 headers."
  },
  {
   "property": "C29",
   "status": "partial",
   "theorems": [
    "Verif.Flow.C29_copied_once",
    "Verif.Flow.C29_enroll_then_copy",
    "Verif.Flow.C29_failure_keeps_partial",
    "Verif.Flow.C29_invalid_pair_false",
    "Verif.Flow.C29_kept_until_copied",
    "Verif.Flow.C29_keygen_stores",
    "Verif.Flow.C29_other_calls_keep",
    "Verif.Flow.C29_reenroll_no_request_false",
    "Verif.Flow.C29_success_stores_partial"
   ],
   "note": "Copy once, no other call changes it, failed enrolments keep it, end to end from the server's text. Refuted in two corners: re-enrolment whose extensions cannot be added reports success with no certificate; a failed key/certificate check leaves both stored."
  },
  {
   "property": "C30",
   "status": "partial",
   "theorems": [
    "Verif.Setter.C30_ranges",
    "Verif.Setter.C30_fips_no_digest",
    "Verif.Setter.C30_out_of_memory_false",
    "Verif.Setter.C30_rejected_unchanged_partial",
    "Verif.Setter.C30_setters"
   ],
   "note": "Ranges over all sequences and the outright behaviour of each setter are proved, also that a rejected call changes nothing, except for est_server_set_dtls_session_max when the new table cannot be allocated, which is refuted with a witness."
  },
  {
   "property": "C31",
   "status": "partial",
   "theorems": [
    "Verif.Setter.C31_eca_rejected",
    "Verif.Setter.C31_atomic_setters",
    "Verif.Setter.C31_csrattrs_accepted",
    "Verif.Setter.C31_csrattrs_cleared",
    "Verif.Setter.C31_csrattrs_lost_false",
    "Verif.Setter.C31_csrattrs_rejected_partial",
    "Verif.Setter.C31_eca_accepted",
    "Verif.Setter.C31_set_auth_key_false",
    "Verif.Setter.C31_set_auth_mixed_false",
    "Verif.Setter.C31_set_auth_partial",
    "Verif.Setter.C31_set_proxy_false",
    "Verif.Setter.C31_set_server_false",
    "Verif.Setter.C31_set_server_partial"
   ],
   "note": "Proved for Enhanced Certificate Authentication, est_proxy_set_server and the small setters; refuted for est_server_init_csrattrs (old attributes lost), est_client_set_server (server replaced, segment refused), est_client_set_auth and est_client_set_proxy, each with the part that does hold."
  },
  {
   "property": "C32",
   "status": "partial",
   "theorems": [
    "Verif.Setter.C32_registration",
    "Verif.Setter.C32_at_most_four",
    "Verif.Setter.C32_full_list_false",
    "Verif.Setter.C32_only_disable_removes"
   ],
   "note": "Outright description of every outcome over all reachable states; refuted for a full list, where success is returned without registration."
  },
  {
   "property": "C33",
   "status": "partial",
   "theorems": [
    "Verif.AuthHdr.C33_basic_round_trip_partial",
    "Verif.AuthHdr.C33_empty_user_false",
    "Verif.AuthHdr.C33_token_round_trip",
    "Verif.AuthHdr.C33_configured_scheme_only"
   ],
   "note": "False of the code for the empty user name, which the server refuses. Proved for every other user name and password that fit."
  },
  {
   "property": "C34",
   "status": "proved",
   "theorems": [
    "Verif.AuthHdr.C34_header_round_trip",
    "Verif.AuthHdr.C34_same_value",
    "Verif.AuthHdr.C34_agreement_means_same_password"
   ],
   "note": "For field values without quote and backslash and headers shorter than 384 characters; longer ones are C60. MD5 is a parameter; the converse names the collision explicitly."
  },
  {
   "property": "C35",
   "status": "proved",
   "theorems": [
    "Verif.Jsmn.C35_memory",
    "Verif.Jsmn.C35_tokens"
   ],
   "note": "Every run on every text and every array size; the fault outcome of the model (access outside the token array) is shown unreachable, tokens lie inside the text, in order and properly nested."
  },
  {
   "property": "C36",
   "status": "partial",
   "theorems": [
    "Verif.Voucher.C36_voucher_partial",
    "Verif.Voucher.C36_accepted_partial",
    "Verif.Voucher.C36_accepted_any",
    "Verif.Voucher.C36_signature",
    "Verif.Voucher.C36_cacert_overflow_false",
    "Verif.Voucher.C36_nested_member_false",
    "Verif.Voucher.C36_scan",
    "Verif.Voucher.C36_serial_overread_false",
    "Verif.Voucher.C36_token_overread_false",
    "Verif.Voucher.C36_value_as_name_false"
   ],
   "note": "For every voucher text the parser accepts only with a serial number and pinned certificate found by the client's scan (C36_accepted_any); for every one-level JSON voucher with at most 100 tokens in which no member value equals a member name, acceptance is exactly serial = client's serial, nonce (if present) = sent nonce, pinned certificate present and verifiable. False without those hypotheses: values and nested members are taken for names, a shorter client serial is read past its end, more than 100 tokens read past the token array, a pinned certificate of 8192 characters writes one byte past the stack buffer (five _false theorems)."
  },
  {
   "property": "C37",
   "status": "proved",
   "theorems": [
    "Verif.Tls.C37_accepts_iff",
    "Verif.Tls.C37_unchanged",
    "Verif.Tls.C37_not_asked",
    "Verif.Tls.C37_chain",
    "Verif.Tls.C37_server_partial"
   ],
   "note": "All notes of OpenSSL and all application callbacks. OpenSSL's own chain building is a parameter (the list of calls of the callback). C37_server_partial is the extra statement about the store's callback used by servers."
  },
  {
   "property": "C38",
   "status": "proved",
   "theorems": [
    "Verif.Voucher.C38_bounded",
    "Verif.Voucher.C38_total",
    "Verif.Voucher.C38_delay"
   ],
   "note": "All registrars and client states. Transport, TLS, verify functions are parameters."
  },
  {
   "property": "C39",
   "status": "proved",
   "theorems": [
    "Verif.Proxy.C39_every_outcome",
    "Verif.Proxy.C39_upstream_error",
    "Verif.Proxy.C39_upstream_retry",
    "Verif.Proxy.C39_no_connection",
    "Verif.Proxy.C39_at_most_two",
    "Verif.Proxy.C39_retry_depends_on_own_mode",
    "Verif.Proxy.C39_only_upstream_certificate",
    "Verif.Proxy.C39_certificate_passed_on"
   ],
   "note": "The certificate operations over HTTP. Writes to the client that fail half way are covered by C39_only_upstream_certificate. TLS and the upstream server are parameters."
  },
  {
   "property": "C40",
   "status": "partial",
   "theorems": [
    "Verif.ProxyTable.C40_directory_partial",
    "Verif.ProxyTable.C40_same_thread_same_context_partial",
    "Verif.ProxyTable.C40_thread_keys",
    "Verif.ProxyTable.C40_two_proxies_false",
    "Verif.ProxyTable.C40_two_proxies_cleanup_false"
   ],
   "note": "Proved for any sequence of calls on one proxy context: the table is a directory from threads to contexts, growing keeps every entry, cleanup destroys exactly the contexts made. False with two live proxy contexts (the capacity is a global); unsynchronised concurrent calls are not modelled."
  },
  {
   "property": "C41",
   "status": "partial",
   "theorems": [
    "Verif.Proxy.C41_segment_partial",
    "Verif.Proxy.C41_history_partial",
    "Verif.Proxy.C41_stale_segment_false"
   ],
   "note": "Proved for proxies with a segment of their own and as long as no request has one. False otherwise: the segment of an earlier request handled by the same thread is used for a request without one."
  },
  {
   "property": "C42",
   "status": "partial",
   "theorems": [
    "Verif.Multipart.C42_split_partial",
    "Verif.Multipart.C42_server_response_partial",
    "Verif.Multipart.C42_short_key_false",
    "Verif.Multipart.C42_leading_hyphen_false"
   ],
   "note": "False of the code for key texts below 256 characters (P-256 keys) and for boundaries beginning with a hyphen. Proved for all others."
  },
  {
   "property": "C43",
   "status": "proved",
   "theorems": [
    "Verif.Flow.C43_csr_attributes",
    "Verif.Flow.C43_generated_request",
    "Verif.Flow.C43_no_key_unchanged"
   ],
   "note": "For both attempts and all operations that edit a CSR; the DER handling of the attributes is OpenSSL's and is abstracted to the list of attributes."
  },
  {
   "property": "C44",
   "status": "proved",
   "theorems": [
    "Verif.Coap.C44_format_accepted_iff",
    "Verif.Coap.C44_accept_accepted_iff",
    "Verif.Coap.C44_format_code",
    "Verif.Coap.C44_accept_code",
    "Verif.Coap.C44_handler_refuses"
   ],
   "note": ""
  },
  {
   "property": "C45",
   "status": "proved",
   "theorems": [
    "Verif.ClientResp.C45_table_entry",
    "Verif.ClientResp.C45_content_types"
   ],
   "note": ""
  },
  {
   "property": "C46",
   "status": "proved",
   "theorems": [
    "Verif.HttpHdr.C46_headers_round_trip",
    "Verif.HttpHdr.C46_header_count",
    "Verif.HttpHdr.C46_message_round_trip",
    "Verif.HttpHdr.C46_lookup_first_match"
   ],
   "note": ""
  },
  {
   "property": "C47",
   "status": "partial",
   "theorems": [
    "Verif.Server.C47_handler_gate_partial",
    "Verif.Server.C47_exactly_one_response_partial",
    "Verif.Server.C47_extended_method_false",
    "Verif.Server.C47_two_responses_false"
   ],
   "note": "False of the code: methods are compared by prefix, and an empty callback buffer causes two responses. Proved: prefix form, and exactly one response when nothing empty is handed over and the network delivers."
  },
  {
   "property": "C48",
   "status": "partial",
   "theorems": [
    "Verif.Server.C48_first_verifying_partial",
    "Verif.Server.C48_internal_error_false",
    "Verif.Server.C48_csr_repeats_identity"
   ],
   "note": "False of the code: a negative (internal error) result counts as verified. Proved for results 0 and 1."
  },
  {
   "property": "C49",
   "status": "partial",
   "theorems": [
    "Verif.Flow.C49_refused_after_copy",
    "Verif.Flow.C49_csrattrs_not_refused",
    "Verif.Flow.C49_get_then_copy_partial",
    "Verif.CaVerify.C49_get_then_copy_no_crls_partial",
    "Verif.CaVerify.C49_crls_false"
   ],
   "note": "Refusal over any later sequence of calls is proved. The round trip is proved for messages without CRLs, with the client's own check (C101); false for messages with CRLs, which are rewritten."
  },
  {
   "property": "C50",
   "status": "proved",
   "theorems": [
    "Verif.Hex.C50_hex_round_trip",
    "Verif.Hex.C50_hex_length",
    "Verif.Hex.C50_hex_injective"
   ],
   "note": ""
  },
  {
   "property": "C51",
   "status": "partial",
   "theorems": [
    "Verif.HttpConn.C51_body_is_what_was_sent_partial",
    "Verif.HttpConn.C51_uninitialised_body_false"
   ],
   "note": "False of the code: est_mg_handler ignores the result of mg_read. Proved without read errors."
  },
  {
   "property": "C52",
   "status": "partial",
   "theorems": [
    "Verif.EstUri.C52_exact_dispatch_partial",
    "Verif.EstUri.C52_encoded_nul_false",
    "Verif.EstUri.C52_long_path_false"
   ],
   "note": "False of the code: an encoded NUL and paths longer than 272 characters are accepted. Proved for the rest."
  },
  {
   "property": "C53",
   "status": "partial",
   "theorems": [
    "Verif.EstUri.C53_documented_paths_partial",
    "Verif.EstUri.C53_accepted_shape_partial",
    "Verif.EstUri.C53_short_paths_undefined_false",
    "Verif.EstUri.C53_prefix_accepted_false",
    "Verif.EstUri.C53_empty_operation_false",
    "Verif.EstUri.C53_operation_from_query_false"
   ],
   "note": "False of the code in several ways, each with a witness. Proved: documented paths are dispatched correctly and the shape of accepted paths."
  },
  {
   "property": "C54",
   "status": "proved",
   "theorems": [
    "Verif.Server.C54_ca_gets_server_key",
    "Verif.Server.C54_key_only_with_certificate"
   ],
   "note": ""
  },
  {
   "property": "C55",
   "status": "partial",
   "theorems": [
    "Verif.Server.C55_user_from_accepted_credentials_partial",
    "Verif.Server.C55_first_request_partial",
    "Verif.Server.C55_user_accepted_on_connection_partial",
    "Verif.Server.C55_stale_user_id_false",
    "Verif.Server.C55_coap_no_user"
   ],
   "note": "False of the code: the user id of an earlier request on the connection is kept. Proved: it was accepted on the same connection."
  },
  {
   "property": "C56",
   "status": "proved",
   "theorems": [
    "Verif.Server.C56_callback_only_authorised",
    "Verif.Server.C56_voucher_only_from_callback",
    "Verif.Server.C56_response"
   ],
   "note": ""
  },
  {
   "property": "C57",
   "status": "partial",
   "theorems": [
    "Verif.Base64.C57_decode_bounds_partial",
    "Verif.Base64.C57_blank_text_false"
   ],
   "note": "False of the code for blank texts, which are read in front of their start. Proved for all others."
  },
  {
   "property": "C58",
   "status": "proved",
   "theorems": [
    "Verif.Coap.C58_certificate_of_this_request",
    "Verif.Coap.C58_new_request_not_stale",
    "Verif.Coap.C58_sessions_do_not_mix",
    "Verif.Coap.C58_client_certificate_required"
   ],
   "note": "Sessions with distinct keys; see C07."
  },
  {
   "property": "C59",
   "status": "proved",
   "theorems": [
    "Verif.Coap.C59_error_code"
   ],
   "note": ""
  },
  {
   "property": "C60",
   "status": "partial",
   "theorems": [
    "Verif.AuthHdr.C60_long_header_false",
    "Verif.AuthHdr.C60_long_user_false",
    "Verif.AuthHdr.C60_short_header_partial",
    "Verif.AuthHdr.C60_other_modes_partial"
   ],
   "note": "False of the code for Digest headers from 384 characters on. Proved for all shorter headers, and for headers of any length on servers that ask for Basic or a token."
  },
  {
   "property": "C61",
   "status": "partial",
   "theorems": [
    "Verif.ClientReq.C61_sent_intact_partial",
    "Verif.ClientReq.C61_intact_iff_partial",
    "Verif.ClientReq.C61_uninitialised_sent_false",
    "Verif.ClientReq.C61_overrun_false",
    "Verif.ClientReq.C61_reachable_false",
    "Verif.ClientReq.C61_cacerts_request",
    "Verif.ClientReq.C61_csrattrs_request",
    "Verif.Voucher.C61_brski_overflow_false",
    "Verif.Voucher.C61_brski_partial"
   ],
   "note": "False of the code for CSR texts above 4096 characters and for header plus CSR above 5120. Proved exactly for all others."
  },
  {
   "property": "C62",
   "status": "proved",
   "theorems": [
    "Verif.ClientReq.C62_server_reads_request",
    "Verif.ClientReq.C62_headers_found",
    "Verif.ClientReq.C62_operation",
    "Verif.ClientReq.C62_basic_credentials"
   ],
   "note": "Headers up to 1024 and CSR texts up to 4096 characters (beyond that C61); operation for requests without path segment."
  },
  {
   "property": "C63",
   "status": "proved",
   "theorems": [
    "Verif.Challenge.C63_tokens",
    "Verif.Challenge.C63_mode",
    "Verif.Challenge.C63_second_challenge",
    "Verif.Challenge.C63_digest_agrees"
   ],
   "note": "Realms of up to 255 characters without quote, backslash, line end."
  },
  {
   "property": "C64",
   "status": "partial",
   "theorems": [
    "Verif.Challenge.C64_no_comment_partial",
    "Verif.Challenge.C64_open_comment_false",
    "Verif.Challenge.C64_empty_name_is_realm"
   ],
   "note": "False of the code: an unterminated comment moves the pointer over the end. Proved for headers without an opening parenthesis."
  },
  {
   "property": "C65",
   "status": "partial",
   "theorems": [
    "Verif.Multipart.C65_pieces_of_response_partial",
    "Verif.Multipart.C65_no_multipart",
    "Verif.Multipart.C65_missing_boundary_false",
    "Verif.Multipart.C65_long_boundary_false",
    "Verif.Multipart.C65_many_headers_false",
    "Verif.Multipart.C65_short_value_false",
    "Verif.Multipart.C65_lookbehind_false"
   ],
   "note": "False of the code in five ways. Proved: whatever is accepted is a piece of the received bytes within the limits."
  },
  {
   "property": "C66",
   "status": "partial",
   "theorems": [
    "Verif.Challenge.C66_parameters_partial",
    "Verif.Challenge.C66_empty_algorithm_false",
    "Verif.Challenge.C66_empty_value_false",
    "Verif.Challenge.C66_unknown_value_false"
   ],
   "note": "False of the code: the value of an unknown parameter is read as a name, so domain=\"realm\" or opaque=\"\" make the client misread the rest. Proved for all other parameter lists."
  },
  {
   "property": "C67",
   "status": "partial",
   "theorems": [
    "Verif.Flow.C67_anchors_never_change",
    "Verif.Flow.C67_new_anchors_unused_false"
   ],
   "note": "The anchors of est_client_init are used for ever; that provisioning switches to the new ones is refuted."
  },
  {
   "property": "C68",
   "status": "partial",
   "theorems": [
    "Verif.Flow.C68_pop_follows_attributes_partial",
    "Verif.Flow.C68_stale_demand_false"
   ],
   "note": "Proved for answers with attributes; refuted for an answer without (204), which keeps the old demand."
  },
  {
   "property": "C69",
   "status": "proved",
   "theorems": [
    "Verif.Setter.C69_accepted_iff",
    "Verif.Setter.C69_server_understands"
   ],
   "note": "uriparser's syntax check is a parameter."
  },
  {
   "property": "C70",
   "status": "partial",
   "theorems": [
    "Verif.Setter.C70_client_ranges",
    "Verif.Setter.C70_old_certificate_false",
    "Verif.Setter.C70_old_user_false",
    "Verif.Setter.C70_segment_kept_false",
    "Verif.Setter.C70_set_auth_accepts",
    "Verif.Setter.C70_set_auth_partial",
    "Verif.Setter.C70_set_proxy_accepts",
    "Verif.Setter.C70_set_proxy_partial",
    "Verif.Setter.C70_set_server_accepts",
    "Verif.Setter.C70_set_server_partial",
    "Verif.Setter.C70_simple_setters",
    "Verif.Setter.C70_unknown_protocol_accepted"
   ],
   "note": "Given values are stored whole and every reachable context is well formed; that omitted values are cleared is refuted for the path segment, the TLS certificate and the user id."
  },
  {
   "property": "C71",
   "status": "partial",
   "theorems": [
    "Verif.Setter.C71_table_size_partial",
    "Verif.Setter.C71_failed_start_locks_false",
    "Verif.Setter.C71_port_zero_false",
    "Verif.Setter.C71_running_table_kept_partial",
    "Verif.Setter.C71_start"
   ],
   "note": "Proved while allocations succeed and the port is not 0; port 0 and a failed start are refuted with witnesses."
  },
  {
   "property": "C72",
   "status": "proved",
   "theorems": [
    "Verif.Jsmn.C72_json_text"
   ],
   "note": "Round trip by induction over the JSON grammar."
  },
  {
   "property": "C73",
   "status": "partial",
   "theorems": [
    "Verif.Voucher.C73_length_false",
    "Verif.Voucher.C73_first_copy_partial",
    "Verif.Voucher.C73_second_copy_false"
   ],
   "note": "Holds: the stored certificate is the voucher's and the first copy hands it out. False: *cacert_len is 0 after every success, and a second copy succeeds with zeros."
  },
  {
   "property": "C74",
   "status": "partial",
   "theorems": [
    "Verif.Voucher.C74_refused_partial",
    "Verif.Voucher.C74_verification_stays_on_false"
   ],
   "note": "Refusals proved. False: ~SSL_VERIFY_PEER|~SSL_VERIFY_FAIL_IF_NO_PEER_CERT sets every bit, so verification stays on, and the verify callback is dropped."
  },
  {
   "property": "C75",
   "status": "partial",
   "theorems": [
    "Verif.Voucher.C75_voucher_status_partial",
    "Verif.Voucher.C75_enroll_status_partial",
    "Verif.Voucher.C75_voucher_request_partial",
    "Verif.Voucher.C75_reason_false",
    "Verif.Voucher.C75_null_reason_false",
    "Verif.Voucher.C75_second_cert_false",
    "Verif.Voucher.C75_enroll_status_refused",
    "Verif.Voucher.C75_enroll_status_sent",
    "Verif.Voucher.C75_voucher_status_refused",
    "Verif.Voucher.C75_voucher_status_sent"
   ],
   "note": "Proved for reasons that need no JSON escaping. False: a reason with quotes injects members; enrolment status with no reason passes NULL to %s; on the second attempt a shorter certificate keeps the end of the old one."
  },
  {
   "property": "C76",
   "status": "partial",
   "theorems": [
    "Verif.Tls.C76_addresses",
    "Verif.Tls.C76_connected_iff_partial",
    "Verif.Tls.C76_errors",
    "Verif.Tls.C76_brski_false",
    "Verif.Tls.C76_which_error"
   ],
   "note": "Proved for direct connections in normal mode and certificates without over-long address entries (C11). False in BRSKI mode: a failing registrar certificate with a subject of 255 bytes or more makes the client write behind a heap buffer. Resumed sessions and the TLS handshake itself are parameters."
  },
  {
   "property": "C77",
   "status": "partial",
   "theorems": [
    "Verif.Tls.C77_subject_partial",
    "Verif.Tls.C77_long_subject_false",
    "Verif.Tls.C77_verify_callback_false"
   ],
   "note": "Holds for buffers one byte longer than the length passed. False in ossl_verify_cb (and the loading of trust anchors), which pass the buffer's size as length."
  },
  {
   "property": "C78",
   "status": "partial",
   "theorems": [
    "Verif.Tls.C78_url_partial",
    "Verif.Tls.C78_ipv6_false",
    "Verif.Tls.C78_credentials",
    "Verif.Tls.C78_no_bypass",
    "Verif.Tls.C78_no_libcurl"
   ],
   "note": "False for IPv6 addresses: the colon is searched in the empty URL, so brackets are never put. libcurl itself is a parameter."
  },
  {
   "property": "C79",
   "status": "partial",
   "theorems": [
    "Verif.Event.C79_told_partial",
    "Verif.Event.C79_stray_false",
    "Verif.Event.C79_empty_subject_false",
    "Verif.Event.C79_empty_cert_subject_false",
    "Verif.Event.C79_unreadable",
    "Verif.Event.C79_endpoint"
   ],
   "note": "The texts told are proved for non-empty subjects. False: each such event clears one byte behind the address array; an empty subject hands the application an array never written. The returned certificate is not modelled."
  },
  {
   "property": "C80",
   "status": "partial",
   "theorems": [
    "Verif.Event.C80_success_partial",
    "Verif.Event.C80_no_end_false",
    "Verif.Event.C80_enrolment",
    "Verif.Event.C80_others"
   ],
   "note": "Pairs proved for requests the dispatcher reports as successful. False for every other request: the end is never announced. HTTP only."
  },
  {
   "property": "C81",
   "status": "partial",
   "theorems": [
    "Verif.Event.C81_state",
    "Verif.Event.C81_validated_partial",
    "Verif.Event.C81_validated_false",
    "Verif.Event.C81_refused_cert",
    "Verif.Event.C81_eca_reported"
   ],
   "note": "The state is proved. False: well-formed Basic, Digest or token credentials of a client without certificate are reported as a validated enhanced certificate authentication."
  },
  {
   "property": "C82",
   "status": "partial",
   "theorems": [
    "Verif.Proxy.C82_only_checked",
    "Verif.Proxy.C82_body_unchanged_partial",
    "Verif.Proxy.C82_malformed_header_false"
   ],
   "note": "The checks are proved for every request. The body is unchanged if it has at most 4096 bytes and the request buffer is not filled to the last byte (see C84)."
  },
  {
   "property": "C83",
   "status": "partial",
   "theorems": [
    "Verif.Proxy.C83_length_exact_partial",
    "Verif.Proxy.C83_server_texts_partial",
    "Verif.Proxy.C83_proxy_keygen_false"
   ],
   "note": "Proved for all responses but one. False for the proxy's response with a generated key, which declares 246 bytes too few."
  },
  {
   "property": "C84",
   "status": "partial",
   "theorems": [
    "Verif.Proxy.C84_no_overrun_partial",
    "Verif.Proxy.C84_overrun_false",
    "Verif.Proxy.C84_uninitialised_false",
    "Verif.Proxy.C84_example_false"
   ],
   "note": "Holds for bodies up to 4096 bytes and headers up to 1024. False beyond: larger CSRs overrun the heap buffer, or bytes never written are sent upstream."
  },
  {
   "property": "C85",
   "status": "partial",
   "theorems": [
    "Verif.Proxy.C85_own_delay_partial",
    "Verif.Proxy.C85_shared_delay_false"
   ],
   "note": "Proved for requests that are not interleaved. False for interleaved ones: the delay is kept in the context shared by all threads."
  },
  {
   "property": "C86",
   "status": "partial",
   "theorems": [
    "Verif.Asn1.C86_added_partial",
    "Verif.Asn1.C86_accepted_again_partial",
    "Verif.Asn1.C86_stored_partial",
    "Verif.Asn1.C86_default",
    "Verif.Asn1.C86_callback_partial",
    "Verif.Asn1.C86_enabled_later_false",
    "Verif.Asn1.C86_indefinite_false"
   ],
   "note": "Proved for attributes that are one DER SEQUENCE. False if proof of possession is enabled after the attributes were configured, and for indefinite lengths."
  },
  {
   "property": "C87",
   "status": "partial",
   "theorems": [
    "Verif.Asn1.C87_inside",
    "Verif.Asn1.C87_exact_partial",
    "Verif.Asn1.C87_inner_false"
   ],
   "note": "No byte behind the data is read for any text. Exact for DER values of universal class. False for malformed OBJECT IDENTIFIERs, whose contents are searched."
  },
  {
   "property": "C88",
   "status": "partial",
   "theorems": [
    "Verif.Proxy.C88_own_cacerts",
    "Verif.Proxy.C88_cacerts",
    "Verif.Proxy.C88_coap_cacerts",
    "Verif.Proxy.C88_coap_segment_false",
    "Verif.Proxy.C88_attrs_unchanged",
    "Verif.Proxy.C88_attrs_with_pop_partial"
   ],
   "note": "Proved over HTTP for every upstream behaviour; with proof of possession, for attributes that are one DER SEQUENCE of at most 1024 bytes. False over CoAP: the first certificates retrieved are handed out to all later requests whichever path segment they name."
  },
  {
   "property": "C89",
   "status": "proved",
   "theorems": [
    "Verif.Wire.C89_first_attempt",
    "Verif.Wire.C89_second_attempt",
    "Verif.Wire.C89_reenroll",
    "Verif.Wire.C89_certificate_client",
    "Verif.Wire.C89_password_client",
    "Verif.Wire.C89_success_means_issued",
    "Verif.Wire.C89_routes_plain",
    "Verif.Wire.C89_routes_segment",
    "Verif.Wire.C89_modes"
   ],
   "note": "One request per connection (later ones: C100) and complete writes. What happens beyond the sizes is C61. Client-side verification of the server (C76) and the contents of CSR and certificate are not part of it."
  },
  {
   "property": "C90",
   "status": "partial",
   "theorems": [
    "Verif.Wire.C90_cacerts",
    "Verif.Wire.C90_cacerts_none",
    "Verif.Wire.C90_csrattrs",
    "Verif.Wire.C90_csrattrs_refused",
    "Verif.Wire.C90_leading_newline_false"
   ],
   "note": "Proved for data that is non-empty, shorter than the client's 2,000,000 byte bound and does not begin with a line break, and complete writes of the server. False for data that begins with CR or LF. PKCS7 parsing and certificate verification at the client are parameters (C101)."
  },
  {
   "property": "C91",
   "status": "proved",
   "theorems": [
    "Verif.Wire.C91_enrolled",
    "Verif.Wire.C91_default",
    "Verif.Wire.C91_same_channel",
    "Verif.Wire.C91_demanded"
   ],
   "note": "The offer of challengePassword by the server, its way to the client, the id in the CSR and the comparison. That the server's parser gives back the attributes which the client's encoder put in is a hypothesis about OpenSSL; C22 says what happens with ids of different lengths; registration authorities are exempt."
  },
  {
   "property": "C92",
   "status": "partial",
   "theorems": [
    "Verif.Wire.C92_handled",
    "Verif.Wire.C92_refused",
    "Verif.Wire.C92_header_too_large",
    "Verif.Wire.C92_no_header",
    "Verif.Wire.C92_incomplete_body_false",
    "Verif.Wire.C92_no_answer"
   ],
   "note": "All requests with defined behaviour are covered. A body that is cut off after its header is handled all the same, with bytes that were never read (C92_incomplete_body_false, see C51). The first request of a connection; later ones are C13."
  },
  {
   "property": "C93",
   "status": "partial",
   "theorems": [
    "Verif.Wire.C93_keygen_partial",
    "Verif.Wire.C93_mismatch",
    "Verif.Wire.C93_short_key_false"
   ],
   "note": "False for keys whose text has less than 256 characters (P-256 keys have 184): the client discards what the server sent. Otherwise proved for clients let in by certificate, texts without hyphen and NUL, key texts of at most 8192 and certificates of at most 4096 characters, complete writes; re-signing of the CSR, the CA and the comparison of key and certificate are parameters."
  },
  {
   "property": "C94",
   "status": "proved",
   "theorems": [
    "Verif.Coap.C94_sessions_independent",
    "Verif.Coap.C94_open_session_unaffected",
    "Verif.Coap.C94_full_table"
   ],
   "note": "All five resources, connects and closes. Sessions are told apart by the key the table uses; that two peers can have the same key is C07."
  },
  {
   "property": "C95",
   "status": "partial",
   "theorems": [
    "Verif.Coap.C95_cacerts_exact",
    "Verif.Coap.C95_attrs_exact",
    "Verif.Coap.C95_too_long",
    "Verif.Coap.C95_errors",
    "Verif.Coap.C95_nothing_held",
    "Verif.Coap.C95_accept_refused",
    "Verif.Coap.C95_no_certificate_needed",
    "Verif.Coap.C95_tls_needed",
    "Verif.Coap.C95_same_cacerts_as_http",
    "Verif.Coap.C95_same_attrs_as_http",
    "Verif.Coap.C95_blocks_consistent",
    "Verif.Coap.C95_served_from_record",
    "Verif.Coap.C95_fresh_again",
    "Verif.Coap.C95_stale_false",
    "Verif.Coap.C95_empty_attrs_false"
   ],
   "note": "False for repeated requests: the response stored for the session is served for ever, also after the server's data changed, without looking at Accept. False for a callback that returns an empty text: the decoder reads before its buffer. libcoap's splitting into blocks is a parameter."
  },
  {
   "property": "C96",
   "status": "partial",
   "theorems": [
    "Verif.Coap.C96_key_and_certificate",
    "Verif.Coap.C96_only_this_request",
    "Verif.Coap.C96_refused",
    "Verif.Coap.C96_errors",
    "Verif.Coap.C96_one_message",
    "Verif.Coap.C96_short_request_false"
   ],
   "note": "Proved for requests of at least 5 bytes; requests of 1, 2 or 4 bytes overrun the handler's buffer. The EST layer's key generation is a parameter (C21, C98)."
  },
  {
   "property": "C97",
   "status": "partial",
   "theorems": [
    "Verif.Coap.C97_order",
    "Verif.Coap.C97_end_iff",
    "Verif.Coap.C97_start_iff",
    "Verif.Coap.C97_upload",
    "Verif.Coap.C97_unpaired_false"
   ],
   "note": "Exactly when START and END are announced is proved for every message and state. False as a pairing: END without START for a stored response, a refused Accept and a missing certificate; START twice for an upload begun anew."
  },
  {
   "property": "C98",
   "status": "proved",
   "theorems": [
    "Verif.Coap.C98_everything_sent_has_a_source"
   ],
   "note": "Sessions are told apart by the key the table uses; that two peers can have the same key is C07. A connect of a session that is already there does not end it. The application data behind the EST layer is a parameter."
  },
  {
   "property": "C99",
   "status": "proved",
   "theorems": [
    "Verif.Coap.C99_only_after_checks",
    "Verif.Coap.C99_enrolled",
    "Verif.Coap.C99_key_generated"
   ],
   "note": "The upload is proved to succeed for clients without enhanced certificate authentication, CSRs of 5 to 16384 bytes, certificate texts as OpenSSL writes them, and at most as many sessions as the table has records. Parsing and signatures of CSRs and the CA are parameters."
  }
 ]
}