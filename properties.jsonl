{"id": "C01", "title": "Base64/Base64url/Base32 text validators accept exactly the intended language", "statement": "For each padding option, parse_str / parse_u8_slice of base64, base64_url and base32 validators returns Ok exactly when the input is non-empty and is a run of alphabet characters, followed, if padding is not Disallow, by a run of '=' that completes the last block to its full size at a position where padding may start (base64: 2 or 3 characters in the last block, base32: 2, 4, 5 or 7); with padding(Must) the total length must be a multiple of the block size.", "quantifier": "all byte strings of any length, all three padding options, all three alphabets", "why_tests_cant": "the language is infinite and the code walks the last block with its own index arithmetic; a test only samples lengths and positions", "anchors": ["validators-derive/src/validator_handlers/base64/mod.rs: v_parse_u8_slice", "validators-derive/src/validator_handlers/base64_url/mod.rs: v_parse_u8_slice", "validators-derive/src/validator_handlers/base32/mod.rs: v_parse_u8_slice"]}
{"id": "C02", "title": "Bytes accepted by the base-N validators are always valid UTF-8", "statement": "Whenever parse_vec_u8 or parse_u8_slice of base64, base64_url or base32 returns Ok, every byte of the input is ASCII, so the unchecked conversion of the bytes into a String never creates an invalid String.", "quantifier": "all byte strings including non UTF-8 ones, all padding options", "why_tests_cant": "soundness of an unsafe block must hold for every byte string an attacker can send", "anchors": ["validators-derive/src/validator_handlers/base64/mod.rs: parse_vec_u8, parse_u8_slice", "validators-derive/src/validator_handlers/base64_url/mod.rs", "validators-derive/src/validator_handlers/base32/mod.rs"]}
{"id": "C03", "title": "Base-N entry points agree and keep the input unchanged", "statement": "For base64, base64_url and base32, the string entry points, the byte entry points and the validate_* entry points return Ok on exactly the same inputs, with the same error otherwise, and the wrapped value is the input itself.", "quantifier": "all inputs, all padding options", "why_tests_cant": "agreement is a statement about every input of several functions at once", "anchors": ["validators-derive/src/validator_handlers/base64/mod.rs: ValidateString, ValidateBytes impls", "validators-derive/src/validator_handlers/base64_url/mod.rs", "validators-derive/src/validator_handlers/base32/mod.rs"]}
{"id": "C04", "title": "Base-N padding errors are truthful", "statement": "PaddingMust is returned exactly when padding(Must) is configured and the non-empty input's length is not a multiple of the block size; PaddingDisallow is returned only when padding(Disallow) is configured and the input contains '='; an empty input is always Invalid.", "quantifier": "all byte strings, all padding options, all three alphabets", "why_tests_cant": "each error is chosen on one of many paths; truthfulness is a claim about all of them", "anchors": ["validators-derive/src/validator_handlers/base64/mod.rs: check_last_length, handle_padding", "validators/src/errors/base64.rs"]}
{"id": "C05", "title": "Decoding validators invert encoding", "statement": "For every non-empty byte vector d, parse_str of a base64_decoded / base64_url_decoded / base32_decoded validator applied to the encoding of d returns exactly d: padded encoding under padding Must and Allow, unpadded encoding under Disallow and Allow.", "quantifier": "all byte vectors of any length, all padding options, all three alphabets", "why_tests_cant": "round-trip over all byte vectors is unbounded", "anchors": ["validators-derive/src/validator_handlers/base64_decoded/mod.rs: v_parse_u8_slice", "validators-derive/src/validator_handlers/base64_url_decoded/mod.rs", "validators-derive/src/validator_handlers/base32_decoded/mod.rs"]}
{"id": "C06", "title": "Decoding is canonical: two different accepted texts never decode to the same bytes", "statement": "If a *_decoded validator accepts a text then encoding the decoded bytes (with the same padding form) gives back that text, so distinct accepted texts denote distinct byte vectors.", "quantifier": "all byte strings, all padding options, all three alphabets", "why_tests_cant": "injectivity relates pairs of inputs; tests cannot enumerate pairs", "anchors": ["validators-derive/src/validator_handlers/base64_decoded/mod.rs: decode", "validators-derive/src/validator_handlers/base32_decoded/mod.rs: decode", "validators-derive/src/validator_handlers/base64_url_decoded/mod.rs: decode"]}
{"id": "C07", "title": "validate_* and parse_* of the decoding validators agree", "statement": "For base64_decoded, base64_url_decoded and base32_decoded, validate_str(s) is Ok exactly when parse_str(s) is Ok (and likewise for bytes).", "quantifier": "all byte strings, all padding options", "why_tests_cant": "two independently written scanners are compared on every input", "anchors": ["validators-derive/src/validator_handlers/base64_decoded/mod.rs: v_validate_u8_slice, v_parse_u8_slice"]}
{"id": "C08", "title": "UUID validator accepts exactly the intended texts and returns their value", "statement": "parse_str of a uuid validator returns Ok exactly for 32 hexadecimal digits of the configured case, with the configured separator after digits 8, 12, 16 and 20: at all four places (Must), at none (Disallow), or at any subset of them (Allow); the value is the number those digits denote in base 16. If an optional separator is itself a digit, it is taken as the separator wherever it can be one.", "quantifier": "all byte strings, all separators, all case options", "why_tests_cant": "the parser computes sliding offsets from the number of missing separators; only a proof covers every combination of separators, lengths and digits", "anchors": ["validators-derive/src/validator_handlers/uuid/mod.rs: handle_iter, handle_decode"]}
{"id": "C09", "title": "UUID parsing never panics and validate_str agrees with parse_str", "statement": "For every string, parse_str and validate_str of a uuid validator return (no index is ever out of range), and validate_str returns Ok exactly when parse_str does, with the same error otherwise.", "quantifier": "all byte strings, all separator and case options", "why_tests_cant": "absence of out-of-range slicing must hold for every length and content", "anchors": ["validators-derive/src/validator_handlers/uuid/mod.rs: v_parse_str, v_validate_str"]}
{"id": "C10", "title": "to_uuid_string can be parsed back to the same value", "statement": "For every value a uuid validator can hold, to_uuid_string gives a text that the same validator accepts and parses to the same value.", "quantifier": "all 2^128 values, all separator and case options", "why_tests_cant": "2^128 values times the configurations", "anchors": ["validators-derive/src/validator_handlers/uuid/mod.rs: ToUuidString impl"]}
{"id": "C11", "title": "MAC address validator accepts exactly the intended texts and returns their value", "statement": "parse_str of a mac_address validator returns Ok exactly for 12 hexadecimal digits of the configured case with the configured separator between each pair of digits: at all five places (Must), none (Disallow) or any subset (Allow); the value is the number those digits denote, below 2^48. If an optional separator is itself a digit, it is taken as the separator wherever it can be one.", "quantifier": "all byte strings, all separators, all case options", "why_tests_cant": "sliding offsets computed from earlier bytes; infinitely many inputs", "anchors": ["validators-derive/src/validator_handlers/mac_address/mod.rs: handle_iter, handle_decode"]}
{"id": "C12", "title": "MAC address parsing never panics and validate_str agrees with parse_str", "statement": "For every string, parse_str and validate_str of a mac_address validator return without panicking, and validate_str returns Ok exactly when parse_str does, with the same error otherwise.", "quantifier": "all byte strings, all separator and case options", "why_tests_cant": "absence of out-of-range slicing must hold for every length and content", "anchors": ["validators-derive/src/validator_handlers/mac_address/mod.rs: handle_iter"]}
{"id": "C13", "title": "to_mac_address_string can be parsed back to the same value", "statement": "For every value that a mac_address validator can produce, to_mac_address_string gives a text that the same validator accepts and parses to the same value.", "quantifier": "all 2^48 values, all separator and case options", "why_tests_cant": "2^48 values times the configurations", "anchors": ["validators-derive/src/validator_handlers/mac_address/mod.rs: ToMacAddressString impl"]}
{"id": "C14", "title": "Integer ranges accept exactly the configured set, with truthful errors", "statement": "A signed_integer or unsigned_integer validator accepts an integer exactly when it lies inside (or, for Outside, outside) the configured bounds, honouring missing bounds and inclusive = false; TooSmall is returned exactly below the minimum, TooLarge exactly above the maximum, Forbidden exactly for members of an Outside range.", "quantifier": "all integers of the type, all bounds (present or absent), inclusive or not, Inside / Outside / unlimited", "why_tests_cant": "bounds and values range over 2^128; code generation picks one of many templates", "anchors": ["validators-derive/src/validator_handlers/signed_integer/mod.rs: handle_range", "validators-derive/src/validator_handlers/unsigned_integer/mod.rs: handle_range", "validators-derive/src/common/range.rs: range_equal"]}
{"id": "C15", "title": "Inside and Outside of the same bounds are complementary", "statement": "For the same bounds, an integer is accepted by range(Inside(..)) if and only if it is rejected by range(Outside(..)), provided at least one bound is given.", "quantifier": "all integers, all bounds", "why_tests_cant": "relates two generated programs on all inputs", "anchors": ["validators-derive/src/validator_handlers/signed_integer/mod.rs: handle_range", "validators-derive/src/common/range_option.rs"]}
{"id": "C16", "title": "Integer validators read exactly the decimal numerals", "statement": "parse_str of an integer validator accepts exactly the texts made of an optional sign and at least one decimal digit whose value fits the integer type and satisfies the range; the result is that value; and the decimal rendering of any accepted integer is accepted and read back as the same integer.", "quantifier": "all strings, all integer widths, all ranges", "why_tests_cant": "infinitely many numerals (leading zeros, any length) and values", "anchors": ["validators-derive/src/validator_handlers/signed_integer/mod.rs: v_parse_str", "validators-derive/src/validator_handlers/unsigned_integer/mod.rs: v_parse_str"]}
{"id": "C17", "title": "Integer validators never truncate: every width entry point gives the same answer", "statement": "For an integer validator over any width, calling the parse_iN / parse_uN entry point of any width with a mathematical integer x gives the same outcome for every entry point that can carry x: Ok(x) if x fits the target type and satisfies the range, TooLarge / TooSmall if x is outside the target type, the range error otherwise; validate_iN agrees with parse_iN.", "quantifier": "all integers, all pairs of entry point width and target width", "why_tests_cant": "7 x 7 combinations of widths over 2^128 values, with casts that would wrap silently", "anchors": ["validators/src/traits/validate_signed_integer.rs", "validators/src/traits/validate_unsigned_integer.rs", "validators-derive/src/validator_handlers/signed_integer/mod.rs: ValidateSignedInteger impls", "validators-derive/src/validator_handlers/unsigned_integer/mod.rs"]}
{"id": "C18", "title": "Every accepted range / length configuration generates closed code", "statement": "For every configuration of signed_integer, unsigned_integer, number, bit, byte and length that the derive macro accepts, the generated range check refers only to variables in scope, so the validator compiles.", "quantifier": "all bounds and range kinds", "why_tests_cant": "each configuration is a different generated program; a test compiles only the ones it lists", "anchors": ["validators-derive/src/validator_handlers/unsigned_integer/mod.rs: handle_range", "validators-derive/src/validator_handlers/length/mod.rs: handle_range", "validators-derive/src/validator_handlers/signed_integer/mod.rs: handle_range"]}
{"id": "C19", "title": "Bit and byte size ranges accept exactly the configured interval", "statement": "A bit or byte validator accepts a size exactly when min <= size and size <= max (size < max when inclusive = false), returns TooSmall exactly when below min and TooLarge exactly when above max, and an integer entry point whose number does not fit a size returns TooLarge; values are never altered.", "quantifier": "all sizes, all bounds", "why_tests_cant": "sizes and bounds range over 2^64 or more", "anchors": ["validators-derive/src/validator_handlers/bit/mod.rs: handle_range, parse_u128", "validators-derive/src/validator_handlers/byte/mod.rs: handle_range, parse_u128"]}
{"id": "C20", "title": "Number validator: NaN policy and range are enforced", "statement": "A number validator never accepts NaN when nan(Disallow), accepts only NaN when nan(Must), and accepts a non-NaN number exactly when it satisfies the configured range; TooSmall / TooLarge / Forbidden / NaN errors are truthful.", "quantifier": "all floating point values including NaN and infinities, all bounds, all NaN policies", "why_tests_cant": "2^64 values and IEEE comparisons with NaN, for which the natural negations fail", "anchors": ["validators-derive/src/validator_handlers/number/mod.rs: handle_range, handle_nan"]}
{"id": "C21", "title": "Length validator accepts exactly the configured lengths", "statement": "A length validator accepts a collection exactly when min <= len and len <= max for the given bounds, with TooSmall / TooLarge exactly when below / above, and returns the collection unchanged; validate_collection agrees.", "quantifier": "all collections, all bounds", "why_tests_cant": "lengths and bounds are unbounded", "anchors": ["validators-derive/src/validator_handlers/length/mod.rs: handle_range, parse_collection"]}
{"id": "C22", "title": "Boolean validator recognises exactly twelve words", "statement": "parse_str of a boolean validator returns true exactly for y, yes, t, true, 1, on and false exactly for n, no, f, false, 0, off, ignoring ASCII case, and rejects every other string; parse_char agrees with parse_str on one-character strings; integers are accepted exactly for 0 and 1.", "quantifier": "all strings, all characters, all integers", "why_tests_cant": "infinitely many near misses; the code is a hand-written byte automaton", "anchors": ["validators-derive/src/validator_handlers/boolean/mod.rs: v_parse_str, v_parse_char, v_parse_i128, v_parse_u128"]}
{"id": "C23", "title": "Line and text validators without trimming accept exactly the intended strings", "statement": "Without trimmed_min, a line (text) validator accepts a string exactly when it has no forbidden control character and its length, counted in characters or in bytes as configured, is within the given min and max; the value is the input unchanged.", "quantifier": "all Unicode strings, all bounds, both length units, both validators", "why_tests_cant": "unbounded strings, eight generated variants per validator", "anchors": ["validators-derive/src/validator_handlers/line/mod.rs: v_parse_str", "validators-derive/src/validator_handlers/text/mod.rs: v_parse_str"]}
{"id": "C24", "title": "Line and text validators with trimmed_min accept exactly the intended strings", "statement": "With trimmed_min, a line (text) validator accepts a string exactly when it has no forbidden control character, its length is within min and max, and the length of the string with surrounding white space removed is at least trimmed_min.", "quantifier": "all Unicode strings, all bounds, both length units, both validators", "why_tests_cant": "unbounded strings; the trimmed length is accumulated incrementally by nested loops", "anchors": ["validators-derive/src/validator_handlers/line/mod.rs: v_parse_str", "validators-derive/src/validator_handlers/text/mod.rs: v_parse_str", "validators-derive/src/common/length.rs"]}
{"id": "C25", "title": "Line and text length errors are truthful", "statement": "TooLong is returned only if the string is longer than max, TooShort only if it is shorter than min or its trimmed length is below trimmed_min, and Invalid only if it has a forbidden control character.", "quantifier": "all Unicode strings, all configurations", "why_tests_cant": "error choice depends on scanning order and early exits on unbounded input", "anchors": ["validators-derive/src/validator_handlers/line/mod.rs: v_parse_str", "validators-derive/src/validator_handlers/text/mod.rs: v_parse_str", "validators/src/errors/line.rs"]}
{"id": "C26", "title": "IPv4 locality is exactly the documented set of blocks", "statement": "is_local_ipv4(a) holds exactly when a lies in 10.0.0.0/8, 172.16.0.0/12, 192.168.0.0/16, 127.0.0.0/8, 169.254.0.0/16, 192.0.2.0/24, 198.51.100.0/24, 203.0.113.0/24, or is 0.0.0.0 or 255.255.255.255.", "quantifier": "all 2^32 addresses", "why_tests_cant": "2^32 addresses, block boundaries", "anchors": ["validators/src/functions/ipv4.rs: is_local_ipv4"]}
{"id": "C27", "title": "IPv6 locality is exactly the documented set of blocks", "statement": "is_local_ipv6(a) holds exactly when a is multicast with a non-global scope, ::, ::1, in fe80::/10, fec0::/10, fc00::/7 or 2001:db8::/32, or is an IPv4-mapped or IPv4-compatible address whose IPv4 part is local; in particular a mapped address is local exactly when its IPv4 address is.", "quantifier": "all 2^128 addresses", "why_tests_cant": "2^128 addresses, bit masks", "anchors": ["validators/src/functions/ipv6.rs: is_local_ipv6", "validators/src/functions/ip.rs: is_local_ip"]}
{"id": "C28", "title": "IPv4 validator: outcome for every string", "statement": "An ipv4 validator accepts a string exactly when it is a dotted-quad address, optionally followed by ':' and a port numeral (subject to the port option), and the address satisfies the local option; the result is that address and that port.", "quantifier": "all strings, all local and port options", "why_tests_cant": "infinitely many strings", "anchors": ["validators-derive/src/validator_handlers/ipv4/mod.rs: v_parse_str"]}
{"id": "C29", "title": "IPv6 validator: outcome for every string", "statement": "An ipv6 validator accepts a string exactly when it is an IPv6 address, bare or in brackets, or a bracketed address followed by ':' and a port numeral (subject to the port option), and the address satisfies the local option; the result is that address and port.", "quantifier": "all strings, all local and port options", "why_tests_cant": "infinitely many strings, index arithmetic around brackets and the last colon", "anchors": ["validators-derive/src/validator_handlers/ipv6/mod.rs: v_parse_str"]}
{"id": "C30", "title": "IP validator is the union of the IPv4 and IPv6 validators", "statement": "With the same options, an ip validator accepts a string exactly when the ipv4 or the ipv6 validator accepts it, and then with the same address and port.", "quantifier": "all strings, all local and port options", "why_tests_cant": "relates three parsers on every input", "anchors": ["validators-derive/src/validator_handlers/ip/mod.rs: v_parse_str"]}
{"id": "C31", "title": "to_uri_authority_string of an IP validator can be parsed back", "statement": "For ipv4, ipv6 and ip validators, to_uri_authority_string of a parsed value is accepted by the same validator and gives the same address and port.", "quantifier": "all 2^32 / 2^128 addresses, all 2^16 ports, all options", "why_tests_cant": "address text compression (::, mapped addresses) over 2^128 addresses", "anchors": ["validators-derive/src/validator_handlers/ipv4/mod.rs: ToUriAuthorityString impl", "validators-derive/src/validator_handlers/ipv6/mod.rs", "validators-derive/src/validator_handlers/ip/mod.rs"]}
{"id": "C32", "title": "Port and local options are enforced by every network validator", "statement": "Whenever an ipv4, ipv6, ip, domain or host validator accepts a string: with port(Must) there is a port, with port(Disallow) there is none; with local(Must) the address or domain returned is local, with local(Disallow) it is not.", "quantifier": "all strings, all combinations of options", "why_tests_cant": "policy must hold on every path of every generated variant", "anchors": ["validators-derive/src/validator_handlers/ipv4/mod.rs", "validators-derive/src/validator_handlers/ipv6/mod.rs", "validators-derive/src/validator_handlers/ip/mod.rs", "validators-derive/src/validator_handlers/domain/mod.rs", "validators-derive/src/validator_handlers/host/mod.rs"]}
{"id": "C33", "title": "Network validators never panic", "statement": "parse_str and validate_str of ipv4, ipv6, ip, domain and host validators return for every string: every index and slice is in range and on a character boundary, and the port unwrap under port(Must) never fails.", "quantifier": "all Unicode strings, all combinations of options", "why_tests_cant": "absence of panics quantifies over all strings including multi-byte characters next to colons and brackets", "anchors": ["validators-derive/src/validator_handlers/ipv4/mod.rs", "validators-derive/src/validator_handlers/ipv6/mod.rs", "validators-derive/src/validator_handlers/ip/mod.rs", "validators-derive/src/validator_handlers/domain/mod.rs", "validators-derive/src/validator_handlers/host/mod.rs"]}
{"id": "C34", "title": "Domain validator enforces the IPv4 and label options", "statement": "Whenever a domain validator accepts a string: with ipv4(Must) the host text is an IPv4 address and with ipv4(Disallow) it is not; with at_least_two_labels(Must) a non-local domain that is not an IPv4 address has at least two labels, with Disallow it has one.", "quantifier": "all strings, all combinations of options, any IDNA conversion", "why_tests_cant": "policy must hold on every path for every string", "anchors": ["validators-derive/src/validator_handlers/domain/mod.rs: v_parse_str", "validators/src/functions/domain.rs"]}
{"id": "C35", "title": "Domain validator separates the domain from the port, and its authority string can be parsed back", "statement": "For an accepted string with a port, the stored domain does not contain the port, and to_uri_authority_string of the value is accepted by the same validator and gives the same domain (up to a final dot) and port.", "quantifier": "all strings, all combinations of options", "why_tests_cant": "infinitely many strings and several code paths", "anchors": ["validators-derive/src/validator_handlers/domain/mod.rs: v_parse_str, ToUriAuthorityString impl"]}
{"id": "C36", "title": "Fully qualified domain helpers are consistent", "statement": "is_fully_qualified holds exactly when the stored domain ends with '.', and get_domain_non_fully_qualified never panics and returns the stored domain without its one final dot if it has one, and unchanged otherwise.", "quantifier": "all stored domains", "why_tests_cant": "must hold for every domain text", "anchors": ["validators-derive/src/validator_handlers/domain/mod.rs: QualifyDomain impl"]}
{"id": "C37", "title": "Host validator classifies every string as the right kind of host", "statement": "A host validator accepts exactly the strings that are an IPv6 address (bare or in brackets), an IPv4 address or a domain without final dot that IDNA accepts, with an optional port, subject to its options; the returned kind, address, domain and port are the ones denoted, and IPv6 is tried before IPv4 before domain.", "quantifier": "all strings, all combinations of options, any IDNA conversion", "why_tests_cant": "infinitely many strings; overlapping syntaxes", "anchors": ["validators-derive/src/validator_handlers/host/mod.rs: v_parse_str"]}
{"id": "C38", "title": "Host authority string can be parsed back", "statement": "to_uri_authority_string of any value accepted by a host validator is accepted by the same validator and gives the same host and port.", "quantifier": "all accepted strings, all combinations of options", "why_tests_cant": "round trip over all hosts", "anchors": ["validators-derive/src/validator_handlers/host/mod.rs: ToUriAuthorityString impl"]}
{"id": "C39", "title": "Domain, host and IP errors keep their documented guarantees", "statement": "IPv4Must, IPv4Disallow, LocalMust, LocalDisallow, AtLeastTwoLabelsMust, AtLeastTwoLabelsDisallow and PortMust are returned only when the corresponding documented guarantee about the input holds (for example LocalDisallow only if the host is local, PortMust only if there is no port).", "quantifier": "all strings, all combinations of options", "why_tests_cant": "errors are produced on many paths before the rest of the input is checked", "anchors": ["validators/src/errors/domain.rs", "validators/src/errors/host.rs", "validators/src/errors/ipv4.rs", "validators-derive/src/validator_handlers/domain/mod.rs", "validators-derive/src/validator_handlers/host/mod.rs"]}
{"id": "C40", "title": "Email validator never panics", "statement": "parse_str and validate_str of an email validator return for every string: no index is out of range, no slice splits a character, no unsigned subtraction underflows.", "quantifier": "all Unicode strings, all combinations of options", "why_tests_cant": "hand-written parser with index arithmetic over arbitrary input", "anchors": ["validators-derive/src/validator_handlers/email/mod.rs: v_parse_str"]}
{"id": "C41", "title": "Email validator consumes the whole input", "statement": "An accepted string is exactly: optional comment, local part (possibly quoted), optional comment, '@', optional comment, domain part, optional comment — with nothing before, between or after these pieces.", "quantifier": "all strings, all combinations of options", "why_tests_cant": "infinitely many strings; trailing data after the last piece is the classic miss", "anchors": ["validators-derive/src/validator_handlers/email/mod.rs: v_parse_str"]}
{"id": "C42", "title": "Email length limits are enforced", "statement": "An accepted email is at most 320 bytes, the part before '@' (comments and quotes included) is at most 64 bytes and the part after '@' is at most 255 bytes.", "quantifier": "all strings, all combinations of options", "why_tests_cant": "limits are enforced by equality tests at single positions, which a path may jump over", "anchors": ["validators-derive/src/validator_handlers/email/mod.rs: v_parse_str"]}
{"id": "C43", "title": "Email options are enforced", "statement": "Whenever an email validator accepts: ip(Must)/(Disallow), local(Must)/(Disallow), at_least_two_labels and comment(Disallow) hold of the returned value, and with non_ascii(Disallow) the local part is ASCII.", "quantifier": "all strings, all combinations of options, any IDNA conversion", "why_tests_cant": "policy must hold on every path for every string", "anchors": ["validators-derive/src/validator_handlers/email/mod.rs: v_parse_str"]}
{"id": "C44", "title": "to_email_string can be parsed back", "statement": "to_email_string of any value accepted by an email validator is accepted by the same validator and gives the same value.", "quantifier": "all accepted strings, all combinations of options", "why_tests_cant": "round trip over all emails, including quoting and comments", "anchors": ["validators-derive/src/validator_handlers/email/mod.rs: ToEmailString impl"]}
{"id": "C45", "title": "Accepted local parts are well formed", "statement": "The local part of an accepted email is never empty; an unquoted one consists of the permitted characters and dots, does not start with a dot and has no two consecutive dots; in a quoted one every special character is escaped; need_quoted is true whenever the local part would not be a valid unquoted local part.", "quantifier": "all strings, all combinations of options", "why_tests_cant": "infinitely many local parts", "anchors": ["validators-derive/src/validator_handlers/email/mod.rs: v_parse_str"]}
{"id": "C46", "title": "HTTP(S)/FTP URL validators enforce the protocol and the local option", "statement": "http_url (http_ftp_url) accepts only texts that begin, ignoring case, with http: or https: (or ftp:), reports the protocol accordingly, never panics on the host, and enforces local(Must)/(Disallow) on the parsed host; any other text gives ProtocolError.", "quantifier": "all strings, all local options, any URL parser satisfying the stated contract", "why_tests_cant": "infinitely many strings", "anchors": ["validators-derive/src/validator_handlers/http_url/mod.rs: v_parse_str", "validators-derive/src/validator_handlers/http_ftp_url/mod.rs: v_parse_str"]}
{"id": "C47", "title": "Phone validator with several countries", "statement": "With several countries configured, a phone validator succeeds exactly when the text can be read for every configured country and it is a valid number of at least one of them; the result maps exactly the matching countries to the number read for that country, independently of the order in which countries are tried.", "quantifier": "all strings, all finite sets of countries, any phone number library", "why_tests_cant": "order independence quantifies over all permutations", "anchors": ["validators-derive/src/validator_handlers/phone/mod.rs: v_parse_str"]}
{"id": "C48", "title": "Wrapper validators add nothing and lose nothing", "statement": "regex, url, semver, semver_req and json validators accept exactly what the underlying library accepts; parse_string, parse_str and validate_str agree; regex keeps the input unchanged; the json integer entry points agree with each other on integers both can carry.", "quantifier": "all strings and values, any underlying library", "why_tests_cant": "agreement over all inputs", "anchors": ["validators-derive/src/validator_handlers/regex/mod.rs", "validators-derive/src/validator_handlers/url/mod.rs", "validators-derive/src/validator_handlers/semver/mod.rs", "validators-derive/src/validator_handlers/semver_req/mod.rs", "validators-derive/src/validator_handlers/json/mod.rs"]}
{"id": "C49", "title": "Deserialization cannot bypass validation", "statement": "For every validator and every serde data format event, a value obtained by deserialization is one that the validator's parse function returns for the same data; every other event is an error.", "quantifier": "all serde events (strings, byte strings, integers, floats, booleans, characters), all validators", "why_tests_cant": "all values of all event kinds", "anchors": ["validators-derive/src/validator_handlers/*/mod.rs: Deserialize impls"]}
{"id": "C50", "title": "Serialize then deserialize gives the same value", "statement": "For every validator, deserializing (in the same self-describing format) the serialized form of a valid value succeeds and gives the same value.", "quantifier": "all valid values, all validators", "why_tests_cant": "all values, and the format's choice of event kind matters", "anchors": ["validators-derive/src/validator_handlers/*/mod.rs: Serialize and Deserialize impls"]}
{"id": "C51", "title": "Deserialization terminates", "statement": "Deserializing any input into any validator finishes.", "quantifier": "all inputs, all validators", "why_tests_cant": "termination is a statement about all executions", "anchors": ["validators-derive/src/validator_handlers/url/mod.rs: Deserialize impl", "validators-derive/src/validator_handlers/semver/mod.rs: Deserialize impl", "validators-derive/src/validator_handlers/semver_req/mod.rs: Deserialize impl"]}
{"id": "C52", "title": "Framework adapters are faithful", "statement": "Rocket FromParam and FromFormField return Ok exactly when parse_str does, and the wrapper validators::Result turns a validation failure into an inner Err while never failing itself, keeping value and error unchanged.", "quantifier": "all strings, any validator", "why_tests_cant": "agreement over all inputs and validators", "anchors": ["validators-derive/src/common/rocket.rs", "validators/src/result/mod.rs", "validators/src/result/rocket_traits.rs", "validators/src/result/serde_traits.rs"]}
{"id": "C53", "title": "Validator parameters: no duplicate is accepted, order does not matter, omitted ones take their defaults", "statement": "For every list of parameters of an attribute: if it is accepted then no parameter occurs twice and all are known; any permutation of it is accepted too and gives the same configuration; a parameter that does not occur keeps its default.", "quantifier": "all parameter lists, all attributes", "why_tests_cant": "all permutations of all lists", "anchors": ["validators-derive/src/common/attributes/base_xx_attribute.rs", "validators-derive/src/common/attributes/ip_xx_attribute.rs", "validators-derive/src/common/attributes/utf8_attribute.rs", "validators-derive/src/common/range.rs"]}
{"id": "C54", "title": "Accepted bounds are ordered", "statement": "Every range, length or trimmed_min configuration the macro accepts satisfies min <= max (min < max when inclusive = false), trimmed_min <= min and trimmed_min <= max, so that the validator accepts at least one value of the required size.", "quantifier": "all bounds, all syntaxes of the range parameter", "why_tests_cant": "bounds are unbounded and there are several syntaxes", "anchors": ["validators-derive/src/common/range.rs: from_meta, from_expr_range", "validators-derive/src/common/length.rs", "validators-derive/src/validator_handlers/length/length_attribute.rs"]}
{"id": "C55", "title": "Contradictory options are rejected unless conflict(Allow)", "statement": "For domain, email and number validators: a configuration accepted without conflict(Allow) is never self-contradictory, i.e. it does not combine options that reject every input of the kind it requires.", "quantifier": "all combinations of options", "why_tests_cant": "the satisfiability of a configuration quantifies over all inputs", "anchors": ["validators-derive/src/validator_handlers/domain/mod.rs: meta_is_conflict", "validators-derive/src/validator_handlers/email/mod.rs: meta_is_conflict", "validators-derive/src/validator_handlers/number/mod.rs"]}
{"id": "C56", "title": "Separator errors of uuid and mac_address are exact", "statement": "SeparatorMust is returned exactly when separator(Must) is configured and the text does not have the length of a text with all separators (36 for uuid, 17 for mac_address); SeparatorDisallow exactly when separator(Disallow) is configured and the length is not that of the bare digits (32, 12).", "quantifier": "all byte strings, all separator and case options", "why_tests_cant": "an exact condition for an error ranges over all inputs and all paths", "anchors": ["validators-derive/src/validator_handlers/uuid/mod.rs: handle_iter", "validators-derive/src/validator_handlers/mac_address/mod.rs: handle_iter"]}
{"id": "C57", "title": "A uuid or mac_address value has one text, up to letter case and separators", "statement": "Two texts accepted by the same uuid (mac_address) validator with separator(Disallow) and case(Upper) or case(Lower) that give the same value are equal. In general two texts, accepted by two uuid (mac_address) validators with any options, give the same value exactly if their digits are the same up to letter case.", "quantifier": "all pairs of byte strings, all pairs of separator and case options", "why_tests_cant": "injectivity relates all pairs of inputs", "anchors": ["validators-derive/src/validator_handlers/uuid/mod.rs: handle_decode", "validators-derive/src/validator_handlers/mac_address/mod.rs: handle_decode"]}
{"id": "C58", "title": "Exact outcome of the domain validator", "statement": "For every string, the domain validator accepts exactly the strings whose host text (all of it, or what precedes the last colon when a port follows) is, as the options ask, the text of an IPv4 address (possibly with a final dot) or a text IDNA converts; the returned domain is the converted text, the returned port is the one denoted, is_ipv4 and is_local tell the truth, and validate_str has the same outcome as parse_str.", "quantifier": "all strings, all 81 option combinations, all IDNA conversion functions", "why_tests_cant": "the input is an arbitrary string and the conversion is an arbitrary external function", "anchors": ["validators-derive/src/validator_handlers/domain/mod.rs: v_parse_str, create_instance"]}
{"id": "C59", "title": "No hidden IPv4 address", "statement": "A domain accepted with ipv4(Disallow), or a host returned as a domain, is never the text of an IPv4 address, so that the stored text cannot be read as an address the options excluded (for example a loopback address).", "quantifier": "all strings, all options, all IDNA conversion functions", "why_tests_cant": "depends on every conversion IDNA may perform, including compatibility mappings of digits", "anchors": ["validators-derive/src/validator_handlers/domain/mod.rs: v_parse_str", "validators-derive/src/validator_handlers/host/mod.rs: v_parse_str"]}
{"id": "C60", "title": "An accepted unquoted email local part does not end with a dot", "statement": "When an email validator returns a value whose need_quoted is false, local_part does not start with a dot, does not end with a dot and has no two dots in a row.", "quantifier": "every string accepted by an email validator, every option combination", "why_tests_cant": "The claim ranges over all strings of up to 320 bytes, every option combination and every IDNA conversion; a test shows single placements of dots only.", "anchors": ["validators-derive/src/validator_handlers/email/mod.rs: v_parse_str, parse_str, validate_str"]}
{"id": "C61", "title": "Email errors are truthful", "statement": "Every error of an email validator other than Invalid names an option that is set. An email that a validator without restrictions on comments and host accepts is refused under restrictions only if it violates one of them, and then with an error that names a violated one.", "quantifier": "every string, every option combination, every IDNA conversion", "why_tests_cant": "The claim ranges over all strings of up to 320 bytes, every option combination and every IDNA conversion; which of several checks reports first depends on the whole input.", "anchors": ["validators-derive/src/validator_handlers/email/mod.rs: v_parse_str, parse_str, validate_str", "validators/src/errors/email.rs: EmailError"]}
{"id": "C62", "title": "Exact outcome of the email validator", "statement": "A string is accepted with a value exactly if it is the concatenation of optional comment, local part (bare, or in quotation marks), optional comment, '@', optional comment, host and optional comment in that value, within the length limits, and the options hold; this reading is unique; validate_str has the same outcome.", "quantifier": "every string, every option combination, every IDNA conversion", "why_tests_cant": "The claim ranges over all strings of up to 320 bytes, every option combination and every IDNA conversion; acceptance is a language over unboundedly many shapes.", "anchors": ["validators-derive/src/validator_handlers/email/mod.rs: v_parse_str, parse_str, validate_str"]}
{"id": "C63", "title": "The derive macro uses the one validator that is asked for", "statement": "#[derive(Validator)] generates code for an item if and only if the item carries exactly one #[validator(..)] attribute, that attribute names exactly one validator whose feature is enabled, and this validator's own checks pass; the code is the one of that validator. Attributes of other macros, anywhere in the list, change nothing. With no #[validator] attribute the error says so; two requests are refused; an attribute that is malformed or names an unknown or disabled validator is refused with its own error.", "quantifier": "every list of attributes, every set of enabled features, every annotated item", "why_tests_cant": "attribute lists have any length and order, and which error comes first depends on all of them", "anchors": ["validators-derive/src/lib.rs: derive_input_handler", "validators-derive/src/supported_validators.rs: Validator::from_path", "validators-derive/src/panic.rs"]}
{"id": "C64", "title": "Accepted structs have exactly the fields that the generated code uses", "statement": "For every option combination, a network validator accepts a struct exactly when it has the documented fields (in any order; a tuple struct when only one value is needed), the numeric validators exactly the integer or float types written out, all the others exactly one unnamed field. Hence code generated for an accepted struct fills every field once and reads only fields that exist, and the parser computes a value for each of them.", "quantifier": "every option combination of every validator and every struct, enum or union", "why_tests_cant": "option combinations times field lists is unbounded; a compile-fail suite covers a few", "anchors": ["validators-derive/src/validator_handlers/*/mod.rs: meta_handler, create_instance", "validators-derive/src/validator_handlers/{domain,host,email,ip,ipv4,ipv6,http_url,http_ftp_url}/mod.rs"]}
{"id": "C65", "title": "The struct shown in a shape error is one that works", "statement": "When the macro rejects an item because of its fields, it prints a struct that supports the validator. A struct written that way, under the same options, passes the check, and the values that the generated code puts into its fields have the types shown.", "quantifier": "every validator, option combination and rejected item", "why_tests_cant": "the message depends on all options; tests never follow the advice mechanically", "anchors": ["validators-derive/src/panic.rs: validator_for_specific_item", "validators-derive/src/common/type_enum.rs", "validators-derive/src/validator_handlers/*/mod.rs: ITEM constants"]}
{"id": "C66", "title": "Must, Allow and Disallow partition", "statement": "For every option with the values Allow, Must and Disallow: Allow accepts exactly the inputs that Must or Disallow accepts and produces the same value apart from fields that exist only under some options; Must and Disallow never accept the same input, except that texts which need no padding meet both padding options and local names meet both label options. Must and Disallow separators are contained in Allow of the same separator, Upper and Lower in Any; comment(Disallow) and non_ascii(Disallow) accept exactly what Allow accepts without comments or non-ASCII characters.", "quantifier": "all inputs, all settings of the other options, all IDNA conversions and URL libraries with the stated contracts", "why_tests_cant": "Tests try each option on a few texts; that relaxing an option never loses or changes an accepted input is a statement about pairs of configurations over all inputs.", "anchors": ["validators-derive/src/validator_handlers/base64/mod.rs", "validators-derive/src/validator_handlers/base64_decoded/mod.rs", "validators-derive/src/validator_handlers/uuid/mod.rs", "validators-derive/src/validator_handlers/mac_address/mod.rs", "validators-derive/src/validator_handlers/number/mod.rs", "validators-derive/src/validator_handlers/ip/mod.rs", "validators-derive/src/validator_handlers/domain/mod.rs", "validators-derive/src/validator_handlers/host/mod.rs", "validators-derive/src/validator_handlers/email/mod.rs", "validators-derive/src/validator_handlers/http_url/mod.rs", "validators-derive/src/common/tri_allow.rs: TriAllow"]}
{"id": "C67", "title": "Wider ranges keep accepted inputs", "statement": "If a range, length or size option is relaxed (a lower or no minimum, a higher or no maximum, an exclusive bound made inclusive, a smaller excluded interval) or an integer field is given a wider type, every input that was accepted is still accepted and produces the same value.", "quantifier": "all integer types and pointer widths, all pairs of ranges of which the second is at least as permissive, all inputs; all numbers, sizes, collections and strings", "why_tests_cant": "A unit test fixes one range; the claim compares two arbitrary configurations over all inputs.", "anchors": ["validators-derive/src/validator_handlers/signed_integer/mod.rs", "validators-derive/src/validator_handlers/unsigned_integer/mod.rs", "validators-derive/src/validator_handlers/number/mod.rs", "validators-derive/src/validator_handlers/length/mod.rs", "validators-derive/src/validator_handlers/bit/mod.rs", "validators-derive/src/validator_handlers/byte/mod.rs", "validators-derive/src/validator_handlers/line/mod.rs", "validators-derive/src/validator_handlers/text/mod.rs"]}
{"id": "C68", "title": "Related validators agree", "statement": "base64_url does to a text what base64 does to the text with - and +, _ and / exchanged, and likewise for the decoded validators; host accepts a text as an address exactly if ipv4 or ipv6 does, and as a name exactly if domain with ipv4(Disallow) does and the text has no final dot and is no IPv6 address; line accepts only what text accepts; http_url accepts only what http_ftp_url accepts and that only what url accepts; values agree.", "quantifier": "all inputs, all option settings, all IDNA conversions and URL libraries", "why_tests_cant": "Each validator is its own generated code with its own copy of the scanning loop; agreement of two of them on a few texts says nothing about the rest.", "anchors": ["validators-derive/src/validator_handlers/base64_url/mod.rs", "validators-derive/src/validator_handlers/base64_url_decoded/mod.rs", "validators-derive/src/validator_handlers/host/mod.rs", "validators-derive/src/validator_handlers/domain/mod.rs", "validators-derive/src/validator_handlers/line/mod.rs", "validators-derive/src/validator_handlers/text/mod.rs", "validators-derive/src/validator_handlers/http_url/mod.rs", "validators-derive/src/validator_handlers/http_ftp_url/mod.rs", "validators-derive/src/validator_handlers/url/mod.rs"]}
{"id": "C69", "title": "Letter case does not matter", "statement": "Two texts that differ only in the case of ASCII letters have the same outcome for boolean and give the same value for ip, ipv4, ipv6, domain and host, for uuid and mac_address with case(Any) and a separator that is no letter, and for the host of an email; http_url and http_ftp_url find the same protocol.", "quantifier": "all pairs of texts that differ in case only, all option settings, all IDNA conversions that do not depend on case", "why_tests_cant": "The number of case variants of a text is exponential; tests try the all-capitals one.", "anchors": ["validators-derive/src/validator_handlers/boolean/mod.rs", "validators-derive/src/validator_handlers/uuid/mod.rs", "validators-derive/src/validator_handlers/mac_address/mod.rs", "validators-derive/src/validator_handlers/ip/mod.rs", "validators-derive/src/validator_handlers/ipv6/mod.rs", "validators-derive/src/validator_handlers/domain/mod.rs", "validators-derive/src/validator_handlers/host/mod.rs", "validators-derive/src/validator_handlers/email/mod.rs", "validators-derive/src/validator_handlers/http_url/mod.rs", "validators-derive/src/validator_handlers/http_ftp_url/mod.rs"]}
{"id": "C70", "title": "The derive macro does not crash", "statement": "For every annotated item the macro either generates code or reports a compile error of its own: it does not panic.", "quantifier": "all items with any attributes, parameters and fields, all combinations of features, all number types", "why_tests_cant": "The input is an arbitrary token tree; tests are programs that compile.", "anchors": ["validators-derive/src/lib.rs", "validators-derive/src/common/range_option.rs", "validators-derive/src/common/number.rs", "validators-derive/src/validator_handlers/number/number_attribute.rs"]}
{"id": "C71", "title": "From the attribute to the accepted strings", "statement": "For every annotated item that the macro accepts, the validator and the options in force are exactly the ones written in its attribute, with the defaults for those left out, and the code generated for it accepts exactly the strings that the language of that validator contains for these options, with the value they stand for; parse_string and validate_str agree with parse_str, there is always such an implementation, and it does not panic.", "quantifier": "all items with any attributes and fields, all combinations of features, all libraries, all strings", "why_tests_cant": "It composes the macro with the generated code: tests run a few attributes on a few strings.", "anchors": ["validators-derive/src/lib.rs", "validators-derive/src/validator_handlers/mod.rs", "validators/src/traits/validate_string.rs"]}
{"id": "C72", "title": "Messages of the macro are true", "statement": "Whenever the derive macro refuses an attribute, what its message says is true of that attribute: a parameter called unsupported is not one of the names then listed, and exactly the listed names are understood; a name said to be reset occurs twice in one list; a list of words shows exactly the words that are taken; two numbers said to be out of order are those written, and they are; a feature said to be off is off; a country said to be repeated is; a parameter said to be missing is; options said to be in conflict are both given; a validator said to be unsupported is not one of those listed, and exactly those listed are understood.", "quantifier": "all attributes, all token streams and parsers of them, all features, all number types and libraries", "why_tests_cant": "The messages are written out by hand next to each reader, apart from the code that decides; tests cover no message for all attributes that lead to it.", "anchors": ["validators-derive/src/panic.rs", "validators-derive/src/common/mod.rs", "validators-derive/src/common/range.rs", "validators-derive/src/common/flag_options.rs", "validators-derive/src/common/length.rs", "validators-derive/src/supported_validators.rs"]}
{"id": "C73", "title": "A maximum that no string exceeds", "statement": "For line and text, a maximal length that a string does not exceed is as good as no maximum for that string: same result, same error, no panic, up to the largest number the attribute can hold.", "quantifier": "all strings, options, sizes of usize, and both meanings of an overflowing addition", "why_tests_cant": "The largest number of a type is rarely tried, and no test goes through all options and strings at that boundary.", "anchors": ["validators-derive/src/validator_handlers/line/mod.rs:handle_str", "validators-derive/src/validator_handlers/text/mod.rs:handle_str", "validators-derive/src/common/length.rs"]}
{"id": "C74", "title": "The text of an error is true and tells it apart", "statement": "When a derived validator refuses a string, the text that the error displays is true: the attribute asks for what the text asks for (a port, no port, a local address, padding, ...) or the value lies where the text says (too large, too small, forbidden), and it names the right kind of thing. Different errors of one validator have different texts, also in the 400 response that axum gets.", "quantifier": "all derive inputs, options, strings, libraries and entry points for strings", "why_tests_cant": "Tests compare error variants, not texts, and only for a few options; that a text is never false or ambiguous is a statement about all inputs.", "anchors": ["validators/src/errors/mod.rs", "validators/src/errors/axum_traits.rs:impl_into_response", "validators/src/errors/domain.rs:DomainError", "validators/src/errors/number.rs:NumberError", "validators/src/errors/length.rs:LengthError"]}
{"id": "C75", "title": "What Deserialize says it expects is true and complete", "statement": "The text with which a derived Deserialize says what it expects (\"an IPv4 string without ports\", \"a number in 1..=5 which must not be NaN\") is true of every string that the type accepts and of its value: ports, locality, labels, kinds of hosts, alphabets, padding, separators, case, protocols, ranges, lengths, countries. And it is complete: two declarations of one validator with the same text accept the same strings.", "quantifier": "all derive inputs, options, libraries and strings, and all pairs of derive inputs", "why_tests_cant": "Tests never look at these texts, and they are composed from all combinations of options; truth and completeness are statements about all combinations and all strings.", "anchors": ["validators-derive/src/validator_handlers/domain/mod.rs:DomainHandler", "validators-derive/src/validator_handlers/email/mod.rs:EmailHandler", "validators-derive/src/validator_handlers/number/mod.rs:NumberHandler", "validators-derive/src/validator_handlers/text/mod.rs:TextHandler", "validators-derive/src/validator_handlers/phone/mod.rs:PhoneHandler"]}
{"id": "C76", "title": "From the attribute to the data that is accepted", "statement": "A type with #[derive(Validator)] gets Deserialize, FromFormField and FromParam exactly when the feature is on and its attribute does not turn them off. Whatever deserializer it is given, human readable or not and whatever it hands over (text, bytes, integers of any width, floats, booleans), the derived Deserialize returns exactly the values that the options written in the attribute allow for that data; FromFormField and FromParam accept exactly the strings that the options allow. None of them panics or runs forever.", "quantifier": "all derive inputs, feature sets, options, libraries, deserializers and the data they hand over, and all strings", "why_tests_cant": "The generated impls are combinations of options, formats and data types; a test deserializes a few JSON texts into a few types. That no data escapes validation is a statement about all deserializers.", "anchors": ["validators-derive/src/validator_handlers/base64/mod.rs:Base64Handler", "validators-derive/src/validator_handlers/signed_integer/mod.rs:SignedIntegerHandler", "validators-derive/src/validator_handlers/length/mod.rs:LengthHandler", "validators-derive/src/common/rocket.rs:impl_from_form_field", "validators-derive/src/common/rocket.rs:impl_from_param"]}
{"id": "C77", "title": "Every combination of features builds", "statement": "Whatever features of validators a crate asks for, and whatever features other crates turn on in its dependencies, every name that the compiled part of validators, of validators-derive and of the code generated by #[derive(Validator)] uses exists in that configuration; generated code that needs the standard library comes only from validators that turn the feature std on. A feature is on in the macro exactly when it is on in the library and derive is on; the macro knows a validator exactly when its feature is on, and its compile_error! fires exactly when no validator is on. The default features are all validators, std and derive; one validator asked for alone turns on no other validator (except url for the HTTP ones) and builds only its own dependencies.", "quantifier": "all subsets of the 50 features of validators, all features turned on elsewhere, with and without the standard library in the deriving crate", "why_tests_cant": "There are 2^50 feature sets; CI builds a handful. A missing feature implication only shows in the combination that lacks it.", "anchors": ["validators/Cargo.toml:[features]", "validators-derive/Cargo.toml:[features]", "validators/src/lib.rs:prelude", "validators/src/functions/mod.rs", "validators/src/models/mod.rs", "validators-derive/src/common/mod.rs", "validators-derive/src/supported_validators.rs:create_enum", "validators-derive/src/lib.rs:validator_derive"]}
{"id": "C78", "title": "The text of a Host is read back", "statement": "The Display text of a Host in a value of a host or email validator is accepted by a host validator (without port(Must)) exactly when its options admit this host, and is read as this very host, without a port; hosts that are printed alike are equal; Host::from an address prints and reads as this address.", "quantifier": "all hosts that a host or email validator can return, all options, all IDNA conversions that obey the stated laws", "why_tests_cant": "Round trips of the unbounded set of host names, all 2^32 IPv4 and 2^128 IPv6 addresses under 27 option sets.", "anchors": ["validators/src/models/host.rs:Display for Host", "validators/src/models/host.rs:From<Ipv4Addr> for Host", "validators-derive/src/validator_handlers/host/mod.rs:v_parse_str"]}
{"id": "C79", "title": "Traits, methods and type of the generated code", "statement": "For every item that the derive macro accepts, whatever the options: each trait is implemented once, and the traits are exactly those the manual lists for the validator plus the enabled serde and Rocket ones; each impl has every required item once and none the trait does not declare; the methods for the field's own integer type are generated; helper items never collide with each other, with trait items or with user items not named v_ or V_; the feature test only adds constants; the code is for every instance of the type.", "quantifier": "all items the macro accepts, all attribute options, all combinations of the features serde, rocket and test, all pointer widths of the target, all lists of generic parameters", "why_tests_cant": "Options select among dozens of emitted impl blocks; a test compiles one attribute at a time and never a generic item, so a duplicate, a missing block or an unusable header in some combination stays unseen.", "anchors": ["validators-derive/src/lib.rs:derive_input_handler", "validators-derive/src/validator_handlers/*/mod.rs:meta_handler", "validators-derive/src/common/rocket.rs:impl_from_form_field", "validators/src/lib.rs:manual (Traits)", "validators/src/traits/*.rs"]}
{"id": "C80", "title": "The same input gives the same answer whatever type it arrives in", "statement": "Every item takes exactly the input types that its validator is for. One input gives the same value or the same error whether it arrives as &str, String, bytes or a single char, as any of the twelve integer types that can hold it, or as f32 or f64; validate_* says what parse_* says; the conversions From and FromStr into validators::Result hold exactly the outcome of parse_*; a number is accepted exactly when the attribute allows it, and the value kept is the number given; a numeral says the same as its integer.", "quantifier": "all items the macro accepts, all inputs of all the types, all pointer widths, all behaviours of the libraries within the stated laws", "why_tests_cant": "The traits chain through casts between a dozen integer types and each validator overrides another part of the chain; unit tests try a few values of one type.", "anchors": ["validators/src/traits/validate_signed_integer.rs:ValidateSignedInteger", "validators/src/traits/validate_unsigned_integer.rs:ValidateUnsignedInteger", "validators/src/traits/validate_number.rs:ValidateNumber", "validators/src/result/built_in_traits.rs:From", "validators-derive/src/validator_handlers/signed_integer/mod.rs", "validators-derive/src/validator_handlers/number/mod.rs", "validators-derive/src/validator_handlers/json/mod.rs", "validators-derive/src/validator_handlers/boolean/mod.rs"]}
{"id": "C81", "title": "With the feature test the constants of a type are its options", "statement": "With the feature test every derived type has exactly the constants of its validator, each once, and the rest of its code stays the same. Each constant holds what its parameter in the attribute says, or the documented default, and has the type it is declared with. What a constant says is true of every string the type accepts: must() and disallow() of ports, local hosts, addresses, labels, comments, padding, NaN and separators, the letter case, the lengths, the range, the countries. Two types with the same validator and the same constants behave the same.", "quantifier": "all items the macro accepts, all attributes and options, all strings, all behaviours of the libraries", "why_tests_cant": "There are twenty kinds of constants for 28 validators with independent options; the macro's own unit tests look at a handful of items, and no test relates a constant to all the strings that are accepted.", "anchors": ["validators/src/test/tri_allow.rs:TriAllow", "validators/src/test/case_option.rs:CaseOption", "validators/src/test/separator_option.rs:SeparatorOption", "validators/src/test/range_option.rs:RangeOption", "validators-derive/src/common/test.rs:ToTokens", "validators-derive/src/validator_handlers/line/mod.rs", "validators-derive/src/validator_handlers/number/mod.rs", "validators-derive/src/validator_handlers/byte/mod.rs"]}
{"id": "C82", "title": "Compiling an item again gives the same program", "statement": "When the compiler runs the macro again on the same item, with the same features and dependencies, it gives the same result, although the hash tables of the macro use random keys: the item is accepted again, or refused with the same message; the type gets the same impls, functions, fields and constants; every parsing function gives the same value or the same error for every input, and so do Deserialize, FromFormField and FromParam.", "quantifier": "all items, all attributes, all orders in which a hash set can give its elements, all inputs, all behaviours of the libraries", "why_tests_cant": "A test compiles an item once or a few times, with orders it does not choose; that nothing depends on the order must hold for all orders and all inputs.", "anchors": ["validators-derive/src/validator_handlers/phone/phone_attribute.rs:PhoneAttribute", "validators-derive/src/validator_handlers/phone/phone_attribute.rs:meta_2_countries", "validators-derive/src/validator_handlers/phone/mod.rs:PhoneHandler::meta_handler", "validators-derive/src/lib.rs:derive_input_handler"]}
{"id": "C83", "title": "A number is judged by its value, whatever its bits and however it is written", "statement": "A number validator over f32 or f64 reads a decimal text as the float nearest to the number it writes (ties to even, beyond the largest float to infinity), and the words inf, infinity and nan in any case; every other text is refused. It compares by the value of the float (both zeros are equal) and returns the bits unchanged; each error has its exact condition. A decimal text, or a float of the other type, is accepted exactly when the number it stands for lies in the range as it is written.", "quantifier": "all texts, all bit patterns of f32 and f64, all bounds, all NaN policies", "why_tests_cant": "There are infinitely many texts and 2^64 floats; rounding, subnormal numbers, signed zeros and ties are rare, and tests with a few numbers do not meet them.", "anchors": ["validators-derive/src/validator_handlers/number/mod.rs:NumberHandler::meta_handler", "validators/src/traits/validate_number.rs:ValidateNumber", "validators-derive/src/common/range.rs:RangedNumber", "validators-derive/src/common/range_option.rs:RangeOption"]}
{"id": "C84", "title": "The first check that fails names the error", "statement": "The ipv4, ipv6, ip, domain, host, email, line, text, base64, base64_url, base32 (also decoded), uuid and mac_address validators make their checks in a fixed order (for addresses and names the port, the kind of address, the name, the port number, the labels, the locality; for an email from left to right, each comment and part in its place, and after the host its labels, its locality, the length and the rest; for line and text the length in bytes first, and the number of characters last; for the base-N texts the length, and padding that is not allowed only if nothing else is wrong before it; for uuid and mac_address the length, if it is fixed), and the error they return is that of the first check that finds something; a string with which no check finds anything is accepted. So every string has exactly one outcome, and which error a string with several faults gets does not depend on anything else.", "quantifier": "all strings, all combinations of options, every IDNA conversion, parsing and validating", "why_tests_cant": "A string can have several faults at once, in infinitely many ways; tests look at one fault at a time.", "anchors": ["validators-derive/src/validator_handlers/domain/mod.rs:DomainHandler::meta_handler", "validators-derive/src/validator_handlers/host/mod.rs:HostHandler::meta_handler", "validators-derive/src/validator_handlers/ip/mod.rs:IpHandler::meta_handler", "validators-derive/src/validator_handlers/ipv4/mod.rs:Ipv4Handler::meta_handler", "validators-derive/src/validator_handlers/ipv6/mod.rs:Ipv6Handler::meta_handler", "validators-derive/src/validator_handlers/email/mod.rs:EmailHandler::meta_handler", "validators-derive/src/validator_handlers/line/mod.rs:LineHandler::meta_handler", "validators-derive/src/validator_handlers/base64/mod.rs:Base64Handler::meta_handler", "validators-derive/src/validator_handlers/uuid/mod.rs:UuidHandler::meta_handler"]}
{"id": "C85", "title": "How long an accepted string can be", "statement": "A string that a derived validator accepts has at most 5 bytes for boolean; 320 for email; 15 for ipv4 and 47 for ipv6 and ip, if port(Disallow) is given; for line and text with a maximum m (not the largest usize) m bytes, or 4m if m counts characters; 36 for uuid and 17 for mac_address, or 32 and 12 with separator(Disallow). Each of these bounds is reached. There is no bound for the base-N validators, for line and text without a maximum, for integers (leading zeros, whatever the range is, unless it is empty), and for ipv4, ipv6, ip and host when a port may be given, because a port may have any number of leading zeros.", "quantifier": "all items that the macro accepts, all libraries whose URLs have hosts, all strings; for the missing bounds all lengths", "why_tests_cant": "Both directions range over unbounded sets: no accepted string is longer, over all strings and options, and for every length there is a longer accepted string.", "anchors": ["validators-derive/src/validator_handlers/boolean/mod.rs:BooleanHandler::meta_handler", "validators-derive/src/validator_handlers/email/mod.rs:EmailHandler::meta_handler", "validators-derive/src/validator_handlers/ipv4/mod.rs:Ipv4Handler::meta_handler", "validators-derive/src/validator_handlers/line/mod.rs:LineHandler::meta_handler", "validators-derive/src/validator_handlers/uuid/mod.rs:UuidHandler::meta_handler", "validators-derive/src/validator_handlers/unsigned_integer/mod.rs:UnsignedIntegerHandler::meta_handler"]}
{"id": "C86", "title": "Accepted strings fit on one line", "statement": "A string accepted by a base-N validator, by boolean, ip, ipv4, ipv6, signed_integer, unsigned_integer, or by uuid and mac_address with a printable separator, consists of printable ASCII characters without blanks. A string accepted by domain, host, email or line has no control character (0x00-0x1F, 0x7F) except tabs, so it cannot break out of the line it is written to; and neither has what to_email_string writes.", "quantifier": "all items that the macro accepts, all strings, all IDNA conversions that refuse control characters", "why_tests_cant": "It excludes every control character at every place of every accepted string, for all options; a test tries a few.", "anchors": ["validators-derive/src/validator_handlers/email/mod.rs:EmailHandler::meta_handler", "validators-derive/src/validator_handlers/domain/mod.rs:DomainHandler::meta_handler", "validators-derive/src/validator_handlers/host/mod.rs:HostHandler::meta_handler", "validators-derive/src/validator_handlers/line/mod.rs:LineHandler::meta_handler", "validators-derive/src/validator_handlers/base64/mod.rs:Base64Handler::meta_handler", "validators-derive/src/validator_handlers/ipv4/mod.rs:Ipv4Handler::meta_handler"]}
{"id": "C87", "title": "What is checked is what is kept", "statement": "parse_string, parse_str, validate_str, parse_vec_u8, parse_u8_slice and validate_u8_slice call the caller's Into or AsRef exactly once, and parse_collection and validate_collection call CollectionLength::len exactly once when there is a bound and never otherwise. The outcome is the one for what that single call returned, a panic in it goes through, and the text, bytes or collection that ends up in the value is the one that was checked. So the bytes that base-N validators turn into a String without a check are UTF-8, whatever the caller's types do.", "quantifier": "all items that the macro accepts, all implementations of AsRef, Into and CollectionLength, also stateful ones whose answers differ from call to call, all states of them", "why_tests_cant": "A test uses well-behaved types such as &str and Vec; the statement is about every implementation, every history of calls and every answer.", "anchors": ["validators-derive/src/validator_handlers/base64/mod.rs:Base64Handler::meta_handler", "validators-derive/src/validator_handlers/base32/mod.rs:Base32Handler::meta_handler", "validators-derive/src/validator_handlers/length/mod.rs:LengthHandler::meta_handler", "validators/src/traits/validate_string.rs:ValidateString", "validators/src/traits/validate_bytes.rs:ValidateBytes", "validators/src/traits/collection_length.rs:CollectionLength"]}
{"id": "C88", "title": "An authority string stays one in a URL", "statement": "When the result of to_uri_authority_string of an accepted value is put between a scheme with :// and a path, query or fragment, the URL read by the rules of RFC 3986 has this scheme, no user information, the host of the value (a dotted quad, an IPv6 address in brackets, or the name without a final dot), its port in decimal, and this path, query and fragment. So an accepted host cannot lead a URL elsewhere.", "quantifier": "all options of domain, host, ip, ipv4 and ipv6, all accepted strings, all IDNA conversions with the usual laws, all schemes and all paths, queries and fragments", "why_tests_cant": "It excludes every delimiter at every place of every authority string, in every URL; a test looks at a few.", "anchors": ["validators-derive/src/validator_handlers/domain/mod.rs:DomainHandler::meta_handler", "validators-derive/src/validator_handlers/host/mod.rs:HostHandler::meta_handler", "validators-derive/src/validator_handlers/ip/mod.rs:IpHandler::meta_handler", "validators-derive/src/validator_handlers/ipv4/mod.rs:Ipv4Handler::meta_handler", "validators-derive/src/validator_handlers/ipv6/mod.rs:Ipv6Handler::meta_handler", "validators/src/traits/to_uri_authority_string.rs:ToUriAuthorityString"]}
{"id": "C89", "title": "An accepted email is read as the same address by others", "statement": "When a string is accepted as an email, a reader of mail addresses (RFC 5322, with nested comments, quoted pairs and address literals) that is given the same string, or the result of to_email_string, reads the local part of the value and a domain that denotes the host of the value, or refuses the text. It never reads another mailbox or another domain: mail to an accepted address does not go elsewhere.", "quantifier": "all options of email, all accepted strings with and without comments and quotation marks, all IDNA conversions that accept names of letters, digits, hyphens and dots only", "why_tests_cant": "Two readers with different rules must agree on every string; a test compares them on a few.", "anchors": ["validators-derive/src/validator_handlers/email/mod.rs:EmailHandler::meta_handler"]}
{"id": "C90", "title": "The text a value is written as identifies the value", "statement": "Two accepted values of one uuid, mac_address, ip, ipv4, ipv6, host, domain or email type that to_uuid_string, to_mac_address_string, to_uri_authority_string or to_email_string writes as the same text are the same value, so the text can serve as a key. This also concerns texts that cannot be parsed back.", "quantifier": "all options of these validators, all pairs of accepted inputs, all IDNA conversions with the usual laws", "why_tests_cant": "It excludes collisions among all pairs of values; a test compares a few.", "anchors": ["validators-derive/src/validator_handlers/uuid/mod.rs:UuidHandler::meta_handler", "validators-derive/src/validator_handlers/mac_address/mod.rs:MacAddressHandler::meta_handler", "validators-derive/src/validator_handlers/email/mod.rs:EmailHandler::meta_handler", "validators-derive/src/validator_handlers/domain/mod.rs:DomainHandler::meta_handler", "validators-derive/src/validator_handlers/host/mod.rs:HostHandler::meta_handler", "validators-derive/src/validator_handlers/ip/mod.rs:IpHandler::meta_handler"]}
{"id": "C91", "title": "The two sides of an email are judged separately, and the host as host, ipv4 and ipv6 judge it", "statement": "Where comments are disallowed, if l@h and l2@h2 are accepted and l@h2 is not too long, then l@h2 is accepted, with the local part of the first value and the host, flags and all else of the second. The host of an email without comments is a name, up to the limits of length, exactly if the host validator without a port takes it for the same name (dotted quads excepted); it is an address in brackets exactly if ipv4 (after [) or ipv6 (after [IPv6:) takes it for the same address.", "quantifier": "all options of email that disallow comments for the first sentence, all options for the rest; all local parts and host texts; all IDNA conversions that refuse '@' and ':'", "why_tests_cant": "It relates three validators to each other on all texts, and pairs of emails to the emails made of their sides.", "anchors": ["validators-derive/src/validator_handlers/email/mod.rs:EmailHandler::meta_handler", "validators-derive/src/validator_handlers/host/mod.rs:HostHandler::meta_handler", "validators-derive/src/validator_handlers/ipv4/mod.rs:Ipv4Handler::meta_handler", "validators-derive/src/validator_handlers/ipv6/mod.rs:Ipv6Handler::meta_handler"]}
{"id": "C92", "title": "Of a line or text that is too long only the beginning counts", "statement": "If a line or text begins with something longer than the maximum (of bytes or characters), it is refused, and the error is the same whatever follows that beginning.", "quantifier": "line and text, all options with a maximum and bounds in order, all beginnings longer than the maximum, all pairs of continuations, parsing and validating", "why_tests_cant": "Continuations are unbounded and so are beginnings; the claim compares all pairs of strings with a common beginning.", "anchors": ["validators-derive/src/validator_handlers/line/mod.rs:LineHandler::meta_handler", "validators-derive/src/validator_handlers/text/mod.rs:TextHandler::meta_handler"]}
{"id": "C93", "title": "The IDNA conversion is only asked about the name", "statement": "What domain, host and email do with a string depends on the IDNA conversion only through its answer for the name in the string: for domain and host the text before the port (not for addresses told from names by an option, nor, for host, for what begins with a bracket, is an address or ends with a dot), for email a text after the @ and a comment, up to the next parenthesis, of at most 255 bytes. So conversions that agree on ASCII texts make no difference for ASCII strings.", "quantifier": "all options of domain, host and email, all strings, all pairs of conversions", "why_tests_cant": "The claim is about every pair of conversions, that is about functions; no test ranges over these.", "anchors": ["validators-derive/src/validator_handlers/domain/mod.rs:DomainHandler::meta_handler", "validators-derive/src/validator_handlers/host/mod.rs:HostHandler::meta_handler", "validators-derive/src/validator_handlers/email/mod.rs:EmailHandler::meta_handler"]}
{"id": "C94", "title": "Every admitted value has a text", "statement": "The values that a validator can return are exactly those that its type and options admit. There is a string that is read as the value, and none for any other: uuid, all numbers of 128 bits; mac_address, all numbers of 48 bits, for every case and separator; the decoding Base32 and Base64 validators, all bytes but the empty ones; the integer validators, all integers of the type in the range; number, every float in the range with its very bits, and NaN exactly if it is not disallowed; ipv4, ipv6 and ip, every address with every 16-bit port or none that the port and local options admit; host, the same and every name from the IDNA conversion that does not look like an IPv4 address and has no final dot; domain, every such name (also with final dot) with every port, and every IPv4 address, with or without final dot and port, that the options admit; email, among the addresses without comments and with an ASCII local part, those whose local part is made of atoms and at most 64 bytes long, or needs quotation marks and is at most 62 bytes long, with every address or name of at most 255 bytes that the options admit.", "quantifier": "all values, all options of the named validators, any IDNA conversion with the stated laws", "why_tests_cant": "There are too many values to look for a string for each, and that a value has no string is a claim about all strings.", "anchors": ["validators-derive/src/validator_handlers/uuid/mod.rs:UuidHandler::meta_handler", "validators-derive/src/validator_handlers/mac_address/mod.rs:MacAddressHandler::meta_handler", "validators-derive/src/validator_handlers/base64_decoded/mod.rs:Base64DecodedHandler::meta_handler", "validators-derive/src/validator_handlers/signed_integer/mod.rs:SignedIntegerHandler::meta_handler", "validators-derive/src/validator_handlers/number/mod.rs:NumberHandler::meta_handler", "validators-derive/src/validator_handlers/ip/mod.rs:IpHandler::meta_handler", "validators-derive/src/validator_handlers/host/mod.rs:HostHandler::meta_handler", "validators-derive/src/validator_handlers/domain/mod.rs:DomainHandler::meta_handler", "validators-derive/src/validator_handlers/email/mod.rs:EmailHandler::meta_handler"]}
{"id": "C95", "title": "The validators of numbers agree", "statement": "Given the same range, a text that one integer validator reads is read as the same integer by another one exactly if the integer is a value of its type, except that unsigned types refuse a minus sign (before a zero). On a numeral whose integer the integer type and the float type both have, an integer validator and a number validator with the same range (without nan(Must)) agree; the float types have all integers up to 2^24 (f32) and 2^53 (f64). For larger integers, an inclusive Inside range or no range: what the integer validator accepts the number validator accepts as the nearest float.", "quantifier": "all strings, all integer types, both float types, all ranges whose bounds both types have", "why_tests_cant": "The claim compares validators on all texts and ranges, with the rounding of floats in between.", "anchors": ["validators-derive/src/validator_handlers/signed_integer/mod.rs:SignedIntegerHandler::meta_handler", "validators-derive/src/validator_handlers/unsigned_integer/mod.rs:UnsignedIntegerHandler::meta_handler", "validators-derive/src/validator_handlers/number/mod.rs:NumberHandler::meta_handler"]}
{"id": "C96", "title": "How long a written text can be", "statement": "to_uri_authority_string writes at most 15 bytes for ipv4 and 41 for ipv6 and ip, six more with a port; for host no more than that, or for a name its length, and six more with a port. to_uuid_string writes 32 bytes, or 36, 40 or 44 with a separator (its code in decimal digits); to_mac_address_string 12, or 17, 22 or 27. to_email_string of an accepted email writes at most 320 bytes, as many as an email may have.", "quantifier": "all values with all 16-bit ports, all options; for email all accepted strings, all options, any IDNA conversion", "why_tests_cant": "A bound is a claim about all values; the longest text is not found by samples.", "anchors": ["validators-derive/src/validator_handlers/ipv4/mod.rs:Ipv4Handler::meta_handler", "validators-derive/src/validator_handlers/ipv6/mod.rs:Ipv6Handler::meta_handler", "validators-derive/src/validator_handlers/host/mod.rs:HostHandler::meta_handler", "validators-derive/src/validator_handlers/uuid/mod.rs:UuidHandler::meta_handler", "validators-derive/src/validator_handlers/email/mod.rs:EmailHandler::meta_handler"]}
{"id": "C97", "title": "One notion of local", "statement": "All network validators (ipv4, ipv6, ip, domain, host, email, http_url, http_ftp_url) have the same notion of a local host. Among the hosts that they return with any options, those returned with local(Must) are exactly the local ones and those returned with local(Disallow) exactly the others. So a host (an address, or a name after IDNA) that one of them returns with local(Must) is never returned by another one with local(Disallow), whatever the other options, strings, IDNA conversion and URL library are.", "quantifier": "all pairs of network validators, all options, all strings, all IDNA conversions and URL libraries whose http, https and ftp URLs have a host", "why_tests_cant": "It is a claim about every host and every pair of validators with separate copies of the check; tests compare a few addresses.", "anchors": ["validators-derive/src/validator_handlers/ip/mod.rs:IpHandler::meta_handler", "validators-derive/src/validator_handlers/domain/mod.rs:DomainHandler::meta_handler", "validators-derive/src/validator_handlers/host/mod.rs:HostHandler::meta_handler", "validators-derive/src/validator_handlers/email/mod.rs:EmailHandler::meta_handler", "validators-derive/src/validator_handlers/http_url/mod.rs:HttpUrlHandler::meta_handler", "validators/src/functions/ipv4.rs:is_local_ipv4", "validators/src/functions/ipv6.rs:is_local_ipv6"]}
{"id": "C98", "title": "Reading a text in pieces", "statement": "A base64, base64url or base32 text whose first part consists of whole blocks is decoded by the decoding validators exactly when both parts are, and the bytes are those of the first part followed by those of the second: with padding(Must) and padding(Disallow) always, so that a text can be cut into any pieces of whole blocks, and with padding(Allow) when the first part has no padding; a padded first part of a longer text may be refused there. The validators of the text accept whole blocks followed by a text exactly when the blocks consist of symbols and the text is accepted. line and text without bounds accept a string exactly when they accept its parts, and with bounds the bounds of the parts add up.", "quantifier": "all texts, all ways to cut them at a block boundary (line and text: anywhere), all padding options, both ways to count lengths, all bounds", "why_tests_cant": "It relates the results on three texts of any lengths and holds at every cut.", "anchors": ["validators-derive/src/validator_handlers/base64_decoded/mod.rs:Base64DecodedHandler::meta_handler", "validators-derive/src/validator_handlers/base64_url_decoded/mod.rs:Base64UrlDecodedHandler::meta_handler", "validators-derive/src/validator_handlers/base32_decoded/mod.rs:Base32DecodedHandler::meta_handler", "validators-derive/src/validator_handlers/base64/mod.rs:Base64Handler::meta_handler", "validators-derive/src/validator_handlers/line/mod.rs:LineHandler::meta_handler", "validators-derive/src/validator_handlers/text/mod.rs:TextHandler::meta_handler"]}
{"id": "C99", "title": "Comments in an email do not matter", "statement": "If an email with a local part of at most 62 bytes is accepted, then so is the email without its comments (and without what follows the last one, C41), with comment(Allow) and with comment(Disallow), and the local part, the host and the flags of the value are the same. Conversely, an email that is accepted without comments is accepted with comments before and after the local part and the host where comments are allowed, and the value differs only in these comments, whatever they contain but closing parentheses, as long as there are at most 64 bytes before the @ and 255 after it, as read and as written. Beyond 62 bytes the first sentence fails: a comment of 61 bytes lifts the limit of a quoted local part.", "quantifier": "all options, all accepted emails, all choices of up to four comments, all IDNA conversions (for the second sentence those that refuse '@')", "why_tests_cant": "It relates two runs over all emails and all texts of comments.", "anchors": ["validators-derive/src/validator_handlers/email/mod.rs:EmailHandler::meta_handler"]}
{"id": "C100", "title": "Debug or release, this machine or that one", "statement": "Whatever is given to a derived validator (a string, bytes, a number, a boolean, data to deserialize), the answer, value and error included, does not depend on whether the program is compiled with overflow checks, nor on the pointer width of the machine, as long as the input is a value that both machines have. For isize and usize, the machine with narrower pointers accepts exactly the texts that the wider one accepts and whose number it has.", "quantifier": "all items that the macro accepts, all inputs of all types, all pairs of builds (with and without overflow checks; pointers of 16, 32 and 64 bits)", "why_tests_cant": "A test runs in one build on one machine; the claim relates two, for all items and inputs.", "anchors": ["validators-derive/src/validator_handlers/email/mod.rs:handle_comment_2", "validators-derive/src/validator_handlers/line/mod.rs:LineHandler::meta_handler", "validators-derive/src/validator_handlers/signed_integer/mod.rs:SignedIntegerHandler::meta_handler", "validators/src/traits/validate_signed_integer.rs:ValidateSignedInteger"]}
{"id": "C101", "title": "Addresses are written in their recommended form", "statement": "Whatever the notation in which an IPv6 address is read, to_uri_authority_string of ipv6, ip and host, the text of a Host and to_email_string write it in the one form that RFC 5952 recommends: lower case, no leading zeros, the longest run of at least two zero segments (the first of several) as ::, addresses of ::ffff:0:0/96 with a dotted quad; in brackets, followed by the port in decimal. IPv4 addresses are written as four decimal numbers without leading zeros.", "quantifier": "all addresses, all ports, all notations in which they are accepted, all options", "why_tests_cant": "There are 2^128 addresses, each with many notations; which run of zeros is shortened depends on all the segments.", "anchors": ["validators-derive/src/validator_handlers/ipv6/mod.rs:to_uri_authority_string", "validators-derive/src/validator_handlers/ip/mod.rs:to_uri_authority_string", "validators-derive/src/validator_handlers/host/mod.rs:to_uri_authority_string", "validators-derive/src/validator_handlers/email/mod.rs:to_email_string", "validators/src/models/host.rs:Host"]}
{"id": "C102", "title": "The strings that have the same value", "statement": "If an integer validator, or an ipv4, ipv6, ip, host or domain validator, accepts one string with a value, then the strings it accepts with that value are exactly the ways to write it. For an integer these are its decimal digits after any number of zeros and an optional sign (- for signed types, also before zero). For an IPv4 address it is the dotted quad alone, so without a port two strings with the same value are equal. For an IPv6 address it is any text of the address, in brackets or not. For a name (host, domain) it is any text of a name that IDNA converts to it. For an IPv4 address as a domain it is the string itself, as domain stores it. A port follows a colon, with an optional + and any number of zeros.", "quantifier": "all integer types and ranges, all address and host options, all pairs of strings, any IDNA conversion", "why_tests_cant": "Every value with a port and every integer has infinitely many strings; a test can show that two strings have the same value, not that no other string has it.", "anchors": ["validators-derive/src/validator_handlers/signed_integer/mod.rs:v_parse_str", "validators-derive/src/validator_handlers/unsigned_integer/mod.rs:v_parse_str", "validators-derive/src/validator_handlers/ipv4/mod.rs:parse_str", "validators-derive/src/validator_handlers/ipv6/mod.rs:parse_str", "validators-derive/src/validator_handlers/ip/mod.rs:parse_str", "validators-derive/src/validator_handlers/host/mod.rs:v_parse_str", "validators-derive/src/validator_handlers/domain/mod.rs:v_parse_str"]}
