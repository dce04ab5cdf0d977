{
 "claims": [
  {
   "property": "C01",
   "status": "proved",
   "theorems": [
    "Verif.Props.BaseN.C01_parse_u8_slice_language",
    "Verif.Props.BaseN.C01_parse_str_language",
    "Verif.Props.BaseN.C01_no_panic"
   ],
   "note": "Exact language for bytes and strings, all padding options, all lengths; scanner never panics."
  },
  {
   "property": "C02",
   "status": "proved",
   "theorems": [
    "Verif.Props.BaseN.C02_accepted_bytes_ascii"
   ],
   "note": "Accepted bytes are ASCII and are the UTF-8 encoding of a string."
  },
  {
   "property": "C03",
   "status": "proved",
   "theorems": [
    "Verif.Props.BaseN.C03_entry_points_agree"
   ],
   "note": "All entry points agree and keep the input."
  },
  {
   "property": "C04",
   "status": "proved",
   "theorems": [
    "Verif.Props.BaseN.C04_padding_must",
    "Verif.Props.BaseN.C04_padding_disallow",
    "Verif.Props.BaseN.C04_padding_disallow_complete",
    "Verif.Props.BaseN.C04_empty"
   ],
   "note": "PaddingMust is exact; PaddingDisallow is truthful, and complete for texts acceptable with padding. The exact condition of each error, PaddingDisallow too, is C84_base."
  },
  {
   "property": "C05",
   "status": "proved",
   "theorems": [
    "Verif.Props.BaseN.C05_decode_encode"
   ],
   "note": "Round trip through the RFC 4648 encoder written in the specification; data_encoding's decoder is a concrete model (trusted base)."
  },
  {
   "property": "C06",
   "status": "partial",
   "theorems": [
    "Verif.Props.BaseN.C06_unpadded_canonical",
    "Verif.Props.BaseN.C06_canonical_partial",
    "Verif.Props.BaseN.C06_language",
    "Verif.Props.BaseN.C06_errors",
    "Verif.Props.BaseN.C06_injective_partial",
    "Verif.Props.BaseN.C06_padded_not_canonical"
   ],
   "note": "Exact without padding. With padding the property is false (C06_padded_not_canonical: QQ==QQ== and QUE=); proved for texts whose '=' all stand at the end. What the code accepts is known exactly: C06_language, concatenations of padded encodings; C06_errors."
  },
  {
   "property": "C07",
   "status": "partial",
   "theorems": [
    "Verif.Props.BaseN.C07_disagreement",
    "Verif.Props.BaseN.C07_parse_implies_validate_partial",
    "Verif.Props.BaseN.C07_validate_without_parse_partial",
    "Verif.Props.BaseN.C07_both_partial"
   ],
   "note": "False of the code in both directions (C07_disagreement). Proved: parse implies validate when '=' only stands at the end; validate without parse only gives Decode and only for texts no bytes encode to. C07_both_partial: exactly the texts that both accept are the encodings of non-empty bytes."
  },
  {
   "property": "C08",
   "status": "proved",
   "theorems": [
    "Verif.Props.Hex.C08_uuid_language",
    "Verif.Props.Hex.C08_uuid_exact",
    "Verif.Props.Hex.C08_uuid_reads",
    "Verif.Props.Hex.C08_uuid_sound",
    "Verif.Props.Hex.C08_uuid_value_bound"
   ],
   "note": "C08_uuid_exact: exact language and value, for every separator byte; a text that an optional digit separator makes ambiguous is read with the separator taken wherever it can be. C08_uuid_language and C08_uuid_reads: if the separator is no digit there is nothing to choose."
  },
  {
   "property": "C09",
   "status": "proved",
   "theorems": [
    "Verif.Props.Hex.C09_uuid_no_panic",
    "Verif.Props.Hex.C09_uuid_validate_agrees"
   ],
   "note": "No panic and exact agreement, every separator byte."
  },
  {
   "property": "C10",
   "status": "partial",
   "theorems": [
    "Verif.Props.Hex.C10_uuid_round_trip_partial",
    "Verif.Props.Hex.C10_uuid_separator_never_round_trips",
    "Verif.Props.Hex.C10_uuid_witness"
   ],
   "note": "Proved without separator. With a separator the property is false for every value (C10_uuid_separator_never_round_trips): the separator byte is printed as a decimal number."
  },
  {
   "property": "C11",
   "status": "proved",
   "theorems": [
    "Verif.Props.Hex.C11_mac_language",
    "Verif.Props.Hex.C11_mac_exact",
    "Verif.Props.Hex.C11_mac_reads",
    "Verif.Props.Hex.C11_mac_sound",
    "Verif.Props.Hex.C11_mac_value_bound"
   ],
   "note": "C11_mac_exact, C11_mac_language, C11_mac_reads: exact language and value below 2^48, as for C08."
  },
  {
   "property": "C12",
   "status": "partial",
   "theorems": [
    "Verif.Props.Hex.C12_mac_panics",
    "Verif.Props.Hex.C12_mac_no_panic_partial",
    "Verif.Props.Hex.C12_mac_exact_partial",
    "Verif.Props.Hex.C12_mac_validate_agrees"
   ],
   "note": "Agreement proved for all inputs. separator(Allow) can panic (C12_mac_panics); absence of panic proved outside of texts of length 12..14 with fewer than eleven non-separator bytes. C12_mac_exact_partial: exactly the inputs that panic."
  },
  {
   "property": "C13",
   "status": "partial",
   "theorems": [
    "Verif.Props.Hex.C13_mac_round_trip_partial",
    "Verif.Props.Hex.C13_mac_separator_never_round_trips",
    "Verif.Props.Hex.C13_mac_witness"
   ],
   "note": "Proved without separator. With a separator the property is false for every value (C13_mac_separator_never_round_trips)."
  },
  {
   "property": "C14",
   "status": "proved",
   "theorems": [
    "Verif.Props.Range.C14_inside",
    "Verif.Props.Range.C14_inside_too_large",
    "Verif.Props.Range.C14_outside",
    "Verif.Props.Range.C14_unlimited",
    "Verif.Props.Range.C14_accepts"
   ],
   "note": "For every width, both signednesses, every range option and every integer, about the code the macro generates whenever it compiles (C18)."
  },
  {
   "property": "C15",
   "status": "proved",
   "theorems": [
    "Verif.Props.Range.C15_complement"
   ],
   "note": "For every generated check that compiles (C18)."
  },
  {
   "property": "C16",
   "status": "proved",
   "theorems": [
    "Verif.Props.Range.C16_language",
    "Verif.Props.Range.C16_round_trip",
    "Verif.Props.Range.C16_errors",
    "Verif.Props.Range.C16_validate"
   ],
   "note": "Exact language, values, errors, round trip through decimal rendering, for any range; integer FromStr and Display are concrete models (trusted base)."
  },
  {
   "property": "C17",
   "status": "proved",
   "theorems": [
    "Verif.Props.Range.C17_no_truncation",
    "Verif.Props.Range.C17_entry_points_agree",
    "Verif.Props.Range.C17_validate_agrees",
    "Verif.Props.Range.C17_text_agrees"
   ],
   "note": "All widths including the pointer-sized ones on 16, 32 and 64 bit targets; error, value and validate agreement."
  },
  {
   "property": "C18",
   "status": "partial",
   "theorems": [
    "Verif.Props.Range.C18_signed_closed_partial",
    "Verif.Props.Range.C18_number_closed_partial",
    "Verif.Props.Range.C18_size_closed_partial",
    "Verif.Props.Range.C18_unsigned_closed_iff_partial",
    "Verif.Props.Range.C18_length_closed_iff_partial",
    "Verif.Props.Range.C18_violated"
   ],
   "note": "False of the code (C18_violated): two-sided Outside of unsigned_integer, and length with min = max, use an unbound name. Exact characterisation of the configurations that compile is proved for all six kinds."
  },
  {
   "property": "C19",
   "status": "proved",
   "theorems": [
    "Verif.Props.Range.C19_size_range",
    "Verif.Props.Range.C19_integer_entry",
    "Verif.Props.Range.C19_text"
   ],
   "note": "Text parsing of the byte-unit crate is a parameter; the range check and integer entry points are exact."
  },
  {
   "property": "C20",
   "status": "proved",
   "theorems": [
    "Verif.Props.Range.C20_nan",
    "Verif.Props.Range.C20_number",
    "Verif.Props.Range.C20_number_errors",
    "Verif.Props.Range.C20_nan_policy",
    "Verif.Props.Range.C20_text"
   ],
   "note": "Floats are an arbitrary linear order plus NaN; bounds are not NaN; float parsing is a parameter. C83 has the same for the bits of the floats."
  },
  {
   "property": "C21",
   "status": "proved",
   "theorems": [
    "Verif.Props.Range.C21_length"
   ],
   "note": "For every collection and length function; equal bounds do not compile (C18)."
  },
  {
   "property": "C22",
   "status": "proved",
   "theorems": [
    "Verif.Props.Boolean.C22_words",
    "Verif.Props.Boolean.C22_validate",
    "Verif.Props.Boolean.C22_char",
    "Verif.Props.Boolean.C22_int",
    "Verif.Props.Boolean.C22_bool"
   ],
   "note": "Exact for all strings, characters and integers."
  },
  {
   "property": "C23",
   "status": "proved",
   "theorems": [
    "Verif.Props.Line.C23_language",
    "Verif.Props.Line.C23_validate_agrees",
    "Verif.Props.Line.C23_no_panic"
   ],
   "note": "All options without trimmed_min, both kinds, characters and bytes; validate agreement and absence of panic for all options."
  },
  {
   "property": "C24",
   "status": "partial",
   "theorems": [
    "Verif.Props.Line.C24_language_partial",
    "Verif.Props.Line.C24_clean_start_partial",
    "Verif.Props.Line.C24_violated"
   ],
   "note": "False of the code (C24_violated): leading white space is not checked, so a line may start with a line feed. The exact accepted language is proved, and the full property for strings whose leading white space is clean."
  },
  {
   "property": "C25",
   "status": "partial",
   "theorems": [
    "Verif.Props.Line.C25_truthful_partial",
    "Verif.Props.Line.C25_long_invalid_partial",
    "Verif.Props.Line.C25_too_long",
    "Verif.Props.Line.C25_exact_partial",
    "Verif.Props.Line.C25_violated"
   ],
   "note": "False of the code (C25_violated): TooShort may be reported for a string that is only too long. TooLong and Invalid proved truthful always, TooShort outside of that case. C25_exact_partial: exactly when it fails. The exact condition of each error is C84_line."
  },
  {
   "property": "C26",
   "status": "proved",
   "theorems": [
    "Verif.Props.Ip.C26_ipv4_blocks"
   ],
   "note": "For every address, as membership of CIDR blocks of numbers."
  },
  {
   "property": "C27",
   "status": "proved",
   "theorems": [
    "Verif.Props.Ip.C27_ipv6_blocks",
    "Verif.Props.Ip.C27_mapped",
    "Verif.Props.Ip.C27_ip"
   ],
   "note": "For every address; mapped addresses agree with their IPv4 address."
  },
  {
   "property": "C28",
   "status": "proved",
   "theorems": [
    "Verif.Props.Ip.C28_parse",
    "Verif.Props.Ip.C28_validate",
    "Verif.Props.IpErrors.C28_errors"
   ],
   "note": "Exact language, value and agreement of validate_str for every string and option; core::net parsing is a concrete model (trusted base). C28_errors: for every text and all options the exact condition of each of the five errors, so that no outcome is left open."
  },
  {
   "property": "C29",
   "status": "proved",
   "theorems": [
    "Verif.Props.Ip.C29_parse",
    "Verif.Props.Ip.C29_validate",
    "Verif.Props.IpErrors.C29_errors"
   ],
   "note": "Exact language (RFC 4291 texts), value and agreement of validate_str for every string and option. C29_errors: for every text and all options the exact condition of each of the five errors, so that no outcome is left open."
  },
  {
   "property": "C30",
   "status": "proved",
   "theorems": [
    "Verif.Props.Ip.C30_union",
    "Verif.Props.Ip.C30_parse",
    "Verif.Props.Ip.C30_locality",
    "Verif.Props.Ip.C30_validate",
    "Verif.Props.IpErrors.C30_errors"
   ],
   "note": "Exact union, including the computed locality. C30_errors: for every text and all options the exact condition of each of the five errors, so that no outcome is left open."
  },
  {
   "property": "C31",
   "status": "proved",
   "theorems": [
    "Verif.Props.Ip.C31_ipv4",
    "Verif.Props.Ip.C31_ipv6",
    "Verif.Props.Ip.C31_ip",
    "Verif.Props.Ip.C31_every_address"
   ],
   "note": "ipv4, ipv6 and ip; Display of core::net is a concrete model (trusted base)."
  },
  {
   "property": "C32",
   "status": "proved",
   "theorems": [
    "Verif.Props.Domain.C32_domain",
    "Verif.Props.Host.C32_host",
    "Verif.Props.Ip.C32_ip"
   ],
   "note": "ipv4, ipv6, ip, domain and host, every string and option combination."
  },
  {
   "property": "C33",
   "status": "proved",
   "theorems": [
    "Verif.Props.Domain.C33_domain",
    "Verif.Props.Host.C33_host",
    "Verif.Props.Ip.C33_ip"
   ],
   "note": "ipv4, ipv6, ip, domain and host; slices at non-boundaries, out-of-range indices and unwraps are explicit panics in the model."
  },
  {
   "property": "C34",
   "status": "proved",
   "theorems": [
    "Verif.Props.Domain.C34_options"
   ],
   "note": "For every IDNA conversion. The options are about the host text; what IDNA makes of it is C59."
  },
  {
   "property": "C35",
   "status": "partial",
   "theorems": [
    "Verif.Props.Domain.C35_plain",
    "Verif.Props.Domain.C35_name_partial",
    "Verif.Props.Domain.C35_ipv4_without_port_partial",
    "Verif.Props.Domain.C35_violated",
    "Verif.Props.Domain.C35_ipv4_port_never_parses_back",
    "Verif.Props.Domain.C35_exact_partial"
   ],
   "note": "False of the code for every IPv4 address with a port when an option is set (C35_violated, C35_ipv4_port_never_parses_back). Proved with default options, for names, and for IPv4 addresses without port. C35_exact_partial: exactly which accepted values parse back, under IdnaLaws."
  },
  {
   "property": "C36",
   "status": "proved",
   "theorems": [
    "Verif.Props.Domain.C36_qualify"
   ],
   "note": "For every stored domain."
  },
  {
   "property": "C37",
   "status": "proved",
   "theorems": [
    "Verif.Props.Host.C37_host",
    "Verif.Props.Host.C37_validate",
    "Verif.Props.Host.C37_exclusive"
   ],
   "note": "Exact outcome for every string, option and IDNA conversion; the three kinds exclude each other; validate_str agrees."
  },
  {
   "property": "C38",
   "status": "partial",
   "theorems": [
    "Verif.Props.Host.C38_address",
    "Verif.Props.Host.C38_name_partial",
    "Verif.Props.Host.C38_exact_partial",
    "Verif.Props.Host.C38_violated"
   ],
   "note": "Proved for all addresses, and under IdnaLaws for names whose conversion neither ends with a dot nor is an IPv4 text; false when IDNA maps an ideographic full stop (C38_violated, conditional on that mapping). C38_exact_partial: exactly these."
  },
  {
   "property": "C39",
   "status": "partial",
   "theorems": [
    "Verif.Props.Domain.C39_domain",
    "Verif.Props.Host.C39_host_partial",
    "Verif.Props.Host.C39_host_violated",
    "Verif.Props.Host.C39_labels_disallow_partial",
    "Verif.Props.Ip.C39_ipv4",
    "Verif.Props.Ip.C39_ipv6",
    "Verif.Props.Ip.C39_ip"
   ],
   "note": "Proved for ipv4, ipv6, ip and domain. False for host (C39_host_violated): AtLeastTwoLabelsDisallow for a lone bracket or an IPv6 address; all other errors and the exact case of that one are proved."
  },
  {
   "property": "C40",
   "status": "partial",
   "theorems": [
    "Verif.Props.Email.C40_exact",
    "Verif.Props.Email.C40_no_panic_partial",
    "Verif.Props.Email.C40_short_partial",
    "Verif.Props.Email.C40_violated"
   ],
   "note": "False in builds with overflow checks (C40_violated): a comment after 64 or more bytes underflows 64 - length. Exact condition proved (C40_exact); no panic otherwise."
  },
  {
   "property": "C41",
   "status": "partial",
   "theorems": [
    "Verif.Props.Email.C41_partial",
    "Verif.Props.Email.C41_without_comments_partial",
    "Verif.Props.Email.C41_violated",
    "Verif.Props.EmailExact.C41_ignored"
   ],
   "note": "False (C41_violated): text after the comment that follows the host is ignored. Everything else of the input is accounted for. C41_ignored: that text may be anything, within the limits of C42."
  },
  {
   "property": "C42",
   "status": "partial",
   "theorems": [
    "Verif.Props.Email.C42_total_and_right",
    "Verif.Props.Email.C42_left_partial",
    "Verif.Props.Email.C42_written",
    "Verif.Props.Email.C42_violated",
    "Verif.Props.EmailExact.C42_left_exact_partial"
   ],
   "note": "Total and right-hand limits proved; the 64 byte limit is false (C42_violated) for non-ASCII local parts, quoted local parts after a 61 byte comment, and comments in unchecked builds; proved otherwise. C42_left_exact_partial: exactly when an accepted email exceeds the 64 bytes."
  },
  {
   "property": "C43",
   "status": "proved",
   "theorems": [
    "Verif.Props.Email.C43_options",
    "Verif.Props.Email.C43_is_local"
   ],
   "note": "Every option, every string and IDNA conversion; also that is_local is right."
  },
  {
   "property": "C44",
   "status": "partial",
   "theorems": [
    "Verif.Props.Email.C44_round_trip_partial",
    "Verif.Props.Email.C44_exact_partial",
    "Verif.Props.Email.C44_plain_partial",
    "Verif.Props.Email.C44_violated",
    "Verif.Props.Email.C44_violated_length"
   ],
   "note": "False (C44_violated, C44_violated_length). Proved under IdnaLaws when quotation marks are written or not needed, the domain has no final dot and the written form is within the limits; these limits are proved to hold for unquoted ASCII local parts. C44_exact_partial: exactly which values are read back, under IdnaLaws."
  },
  {
   "property": "C45",
   "status": "partial",
   "theorems": [
    "Verif.Props.Email.C45_local_part",
    "Verif.Props.Email.C45_quoted_partial",
    "Verif.Props.Email.C45_violated"
   ],
   "note": "False (C45_violated): a blank after a backslash keeps the escape open. Non-emptiness, unquoted shape and need_quoted proved always; escapes proved when no blank follows a backslash."
  },
  {
   "property": "C46",
   "status": "proved",
   "theorems": [
    "Verif.Props.Url.C46_http",
    "Verif.Props.Url.C46_http_ftp",
    "Verif.Props.Url.C46_entry_points",
    "Verif.Props.Url.C46_agree"
   ],
   "note": "The url crate is a parameter: any library whose http, https and ftp URLs have a host. The exact outcome, every error included, is stated for http_url and http_ftp_url; without the host contract the check panics, shown by an example."
  },
  {
   "property": "C47",
   "status": "proved",
   "theorems": [
    "Verif.Props.Phone.C47_international",
    "Verif.Props.Phone.C47_one",
    "Verif.Props.Phone.C47_several",
    "Verif.Props.Phone.C47_order",
    "Verif.Props.Phone.C47_validate"
   ],
   "note": "The phonenumber crate is a parameter. No country, one country and several countries; the map is the list of its entries."
  },
  {
   "property": "C48",
   "status": "proved",
   "theorems": [
    "Verif.Props.Wrapper.C48_regex",
    "Verif.Props.Wrapper.C48_library",
    "Verif.Props.Wrapper.C48_json_integers",
    "Verif.Props.Wrapper.C48_json_agree",
    "Verif.Props.Wrapper.C48_json_other"
   ],
   "note": "The libraries are parameters; serde_json's conversion of integers to JSON numbers is modelled."
  },
  {
   "property": "C49",
   "status": "proved",
   "theorems": [
    "Verif.Props.Serde.C49_base",
    "Verif.Props.Serde.C49_base_decoded",
    "Verif.Props.Serde.C49_texts",
    "Verif.Props.Serde.C49_strings",
    "Verif.Props.Serde.C49_boolean",
    "Verif.Props.Serde.C49_number",
    "Verif.Props.Serde.C49_signed",
    "Verif.Props.Serde.C49_unsigned",
    "Verif.Props.Serde.C49_byte",
    "Verif.Props.Serde.C49_inner",
    "Verif.Props.Serde.C49_bit",
    "Verif.Props.Serde.C49_json",
    "Verif.Props.Serde.C49_read",
    "Verif.Props.Serde.C49_base_valid",
    "Verif.Props.Serde.C49_integer_valid",
    "Verif.Props.Serde.C49_byte_valid",
    "Verif.Props.Serde.C49_line_valid"
   ],
   "note": "Every own Deserialize impl of the crate except url, semver and semver_req, which never return (C51). serde's Visitor defaults are modelled; the exact outcome is stated for every deserializer, and corollaries say that the values satisfy the validator."
  },
  {
   "property": "C50",
   "status": "partial",
   "theorems": [
    "Verif.Props.SerdeBack.C50_base",
    "Verif.Props.SerdeBack.C50_line",
    "Verif.Props.SerdeBack.C50_regex",
    "Verif.Props.SerdeBack.C50_ip",
    "Verif.Props.SerdeBack.C50_uuid_mac_partial",
    "Verif.Props.SerdeBack.C50_separator_violated",
    "Verif.Props.SerdeBack.C50_domain_partial",
    "Verif.Props.SerdeBack.C50_host_partial",
    "Verif.Props.SerdeBack.C50_email_partial",
    "Verif.Props.SerdeBack.C50_url",
    "Verif.Props.SerdeBack.C50_phone_violated",
    "Verif.Props.SerdeBack.C50_boolean",
    "Verif.Props.SerdeBack.C50_written",
    "Verif.Props.SerdeBack.C50_integers",
    "Verif.Props.SerdeBack.C50_numbers",
    "Verif.Props.SerdeBack.C50_byte",
    "Verif.Props.SerdeBack.C50_inner",
    "Verif.Props.SerdeBack.C50_decoded_violated",
    "Verif.Props.SerdeBack.C50_json_keeps",
    "Verif.Props.SerdeBack.C50_json_integers_partial",
    "Verif.Props.SerdeBack.C50_json_decoded_violated",
    "Verif.Props.SerdeBack.C50_json_json_violated",
    "Verif.Props.SerdeBack.C50_json_numbers_partial",
    "Verif.Props.SerdeBack.C50_json_numbers32_partial"
   ],
   "note": "False for signed_integer in JSON, the decoding base-N validators, uuid and mac_address with separators, phone with several countries, json, non-finite numbers and integers beyond 64 bits in JSON (theorems named _violated and the iffs in C50_json_*). Proved for the others under the stated conditions; email, host and domain as far as C44, C38 and C35 go. C50_written: the type with which an integer is written has room for it."
  },
  {
   "property": "C51",
   "status": "partial",
   "theorems": [
    "Verif.Props.Serde.C51_finishes_partial",
    "Verif.Props.Serde.C51_number_finishes",
    "Verif.Props.Serde.C51_violated"
   ],
   "note": "False for url, semver and semver_req: their deserialize only calls itself (C51_violated). Proved for all the others."
  },
  {
   "property": "C52",
   "status": "proved",
   "theorems": [
    "Verif.Props.Serde.C52_result_base",
    "Verif.Props.Serde.C52_result_texts",
    "Verif.Props.Serde.C52_result_boolean",
    "Verif.Props.Serde.C52_result_number",
    "Verif.Props.Serde.C52_result_integers",
    "Verif.Props.Serde.C52_result_size",
    "Verif.Props.Serde.C52_result_read",
    "Verif.Props.Serde.C52_result_agrees",
    "Verif.Props.Serde.C52_rocket",
    "Verif.Props.Serde.C52_conversions"
   ],
   "note": "All impls of serde_traits.rs by shape, the Rocket traits and the conversions of validators::Result."
  },
  {
   "property": "C53",
   "status": "proved",
   "theorems": [
    "Verif.Props.Attr.C53_base",
    "Verif.Props.Attr.C53_basic",
    "Verif.Props.Attr.C53_url",
    "Verif.Props.Attr.C53_ip",
    "Verif.Props.Attr.C53_range",
    "Verif.Props.Attr.C53_bit",
    "Verif.Props.Attr.C53_byte",
    "Verif.Props.Attr.C53_domain",
    "Verif.Props.Attr.C53_email",
    "Verif.Props.Attr.C53_host",
    "Verif.Props.Attr.C53_hex",
    "Verif.Props.Attr.C53_number",
    "Verif.Props.Attr.C53_phone",
    "Verif.Props.Attr.C53_separators",
    "Verif.Props.Attr.C53_length",
    "Verif.Props.Attr.C53_regex",
    "Verif.Props.Attr.C53_utf8",
    "Verif.Props.Attr.C53_order"
   ],
   "note": "For every attribute type: exact acceptance and resulting configuration, and independence of the order. syn is a parameter."
  },
  {
   "property": "C54",
   "status": "partial",
   "theorems": [
    "Verif.Props.AttrBounds.C54_integers_partial",
    "Verif.Props.AttrBounds.C54_numbers_partial",
    "Verif.Props.AttrBounds.C54_sizes_partial",
    "Verif.Props.AttrBounds.C54_without_full_partial",
    "Verif.Props.AttrBounds.C54_nonempty_integer",
    "Verif.Props.AttrBounds.C54_violated",
    "Verif.Props.AttrBounds.C54_length",
    "Verif.Props.AttrBounds.C54_text",
    "Verif.Props.FloatAttr.C54_nonempty_number"
   ],
   "note": "False (C54_violated): range expressions such as 5..=1 are not checked, and an excluded maximum equal to the least value of the type leaves no value. Proved for the named form, for builds without the feature full, for lengths and trimmed_min; for integers it is proved exactly which accepted bounds leave a value. For floats, on their bits and over texts, C54_nonempty_number is exact: a number is accepted if and only if NaN is not required and the bounds of Inside are in order."
  },
  {
   "property": "C55",
   "status": "partial",
   "theorems": [
    "Verif.Props.AttrBounds.C55_domain",
    "Verif.Props.AttrBounds.C55_email",
    "Verif.Props.AttrBounds.C55_number_partial",
    "Verif.Props.AttrBounds.C55_number_refused",
    "Verif.Props.AttrBounds.C55_number_violated",
    "Verif.Props.FloatAttr.C55_number_exact",
    "Verif.Props.FloatAttr.C55_number_texts_violated"
   ],
   "note": "domain and email: refused exactly if nothing is accepted (under three facts about IDNA). number: false (C55_number_violated), and the refused combination is in fact not contradictory (C55_number_refused); exact condition proved. For number, on the bits of the floats, C55_number_exact says exactly which accepted attributes accept no text, and C55_number_texts_violated gives one."
  },
  {
   "property": "C56",
   "status": "proved",
   "theorems": [
    "Verif.Props.Hex.C56_separator_must",
    "Verif.Props.Hex.C56_separator_disallow"
   ],
   "note": "Exact conditions for both errors and both validators."
  },
  {
   "property": "C57",
   "status": "proved",
   "theorems": [
    "Verif.Props.Hex.C57_same_value",
    "Verif.Props.Hex.C57_canonical_without_separator"
   ],
   "note": "C57_canonical_without_separator: injectivity for one case and no separator. C57_same_value: any two options, the digits (Cut) up to letter case (lowered)."
  },
  {
   "property": "C58",
   "status": "proved",
   "theorems": [
    "Verif.Props.Domain.C58_domain",
    "Verif.Props.Domain.C58_validate"
   ],
   "note": "For every IDNA conversion."
  },
  {
   "property": "C59",
   "status": "partial",
   "theorems": [
    "Verif.Props.Domain.C59_domain_violated",
    "Verif.Props.Domain.C59_domain_partial",
    "Verif.Props.Email.C59_email_violated",
    "Verif.Props.EmailExact.C59_email_every_address",
    "Verif.Props.EmailExact.C59_email_only",
    "Verif.Props.Host.C59_host_violated",
    "Verif.Props.Host.C59_host_partial"
   ],
   "note": "False for email (C59_email_violated): with ip(Disallow) and local(Disallow) the text 127.0.0.1 is accepted as a domain. For domain and host false if IDNA maps full-width digits to ASCII digits, as UTS 46 does (C59_domain_violated, C59_host_violated, conditional on that mapping); proved for conversions that create no IPv4 text. email: C59_email_every_address, every IPv4 address is accepted as a domain unless ip(Must), local(Must) or at_least_two_labels(Disallow); C59_email_only, no other text hides one, for the same conversions."
  },
  {
   "property": "C60",
   "status": "partial",
   "theorems": [
    "Verif.Props.Email.C60_dots_partial",
    "Verif.Props.Email.C60_violated",
    "Verif.Props.EmailExact.C60_any"
   ],
   "note": "False (C60_violated): a local part may end with a dot. No leading dot and no double dots proved. C60_any: a dot may be added to every unquoted local part, room permitting."
  },
  {
   "property": "C61",
   "status": "proved",
   "theorems": [
    "Verif.Props.Email.C61_named_option_is_set",
    "Verif.Props.Email.C61_truthful",
    "Verif.Props.Email.C61_accepted"
   ],
   "note": "For every string, option combination and IDNA conversion."
  },
  {
   "property": "C62",
   "status": "proved",
   "theorems": [
    "Verif.Props.Email.C62_email",
    "Verif.Props.Email.C62_unambiguous",
    "Verif.Props.Email.C62_validate"
   ],
   "note": "For every string, option combination and IDNA conversion, checked and unchecked builds."
  },
  {
   "property": "C63",
   "status": "proved",
   "theorems": [
    "Verif.Props.Derive.C63_accepts",
    "Verif.Props.Derive.C63_ignores_others",
    "Verif.Props.Derive.C63_not_set_up",
    "Verif.Props.Derive.C63_repeated",
    "Verif.Props.Derive.C63_faulty",
    "Verif.Props.Derive.C63_request_or_faulty"
   ],
   "note": "syn is a parameter. Every attribute list, any set of enabled validators."
  },
  {
   "property": "C64",
   "status": "partial",
   "theorems": [
    "Verif.Props.Derive.C64_domain",
    "Verif.Props.Derive.C64_host",
    "Verif.Props.Derive.C64_ip",
    "Verif.Props.Derive.C64_email",
    "Verif.Props.Derive.C64_single",
    "Verif.Props.Derive.C64_integers",
    "Verif.Props.Derive.C64_floats",
    "Verif.Props.Derive.C64_constructors_partial",
    "Verif.Props.Derive.C64_violated",
    "Verif.Props.Derive.C64_http_partial",
    "Verif.Props.Derive.C64_domain_values",
    "Verif.Props.Derive.C64_host_values",
    "Verif.Props.Derive.C64_email_values"
   ],
   "note": "False for http_url and http_ftp_url (C64_violated): any two named fields pass. Exact acceptance is proved for every validator, and agreement of constructors, readers and struct for all the others. Rust's type checking of the fields is not modelled."
  },
  {
   "property": "C65",
   "status": "partial",
   "theorems": [
    "Verif.Props.Derive.C65_advice_partial",
    "Verif.Props.Derive.C65_can_follow",
    "Verif.Props.Derive.C65_unsigned_violated",
    "Verif.Props.Derive.C65_type_violated",
    "Verif.Props.Derive.C65_domain_violated",
    "Verif.Props.Derive.C65_email_violated"
   ],
   "note": "False for unsigned_integer (signed types are shown), byte (shows Bit), phone with at most one country (shows String), and on enums and unions for domain and email; theorems named _violated. Proved for all the others."
  },
  {
   "property": "C66",
   "status": "partial",
   "theorems": [
    "Verif.Props.Options.C66_padding",
    "Verif.Props.Options.C66_padding_both",
    "Verif.Props.Options.C66_decoded_partial",
    "Verif.Props.Options.C66_decoded_violated",
    "Verif.Props.Options.C66_separator",
    "Verif.Props.Options.C66_case",
    "Verif.Props.Options.C66_nan",
    "Verif.Props.Options.C66_ip",
    "Verif.Props.Options.C66_domain_port",
    "Verif.Props.Options.C66_domain_partial",
    "Verif.Props.Options.C66_domain_plain_partial",
    "Verif.Props.Options.C66_domain_violated",
    "Verif.Props.Options.C66_domain_labels_both",
    "Verif.Props.Options.C66_host",
    "Verif.Props.Options.C66_host_labels_both",
    "Verif.Props.Options.C66_email_host",
    "Verif.Props.Options.C66_email_comment",
    "Verif.Props.Options.C66_email_non_ascii",
    "Verif.Props.Options.C66_url"
   ],
   "note": "False for the decoded validators (padding(Must) accepts QQ==QUJD, Allow refuses it; C66_decoded_violated) and for the stored domain of an IPv4 address with a port (C66_domain_violated). Proved for all other validators, for decoded texts with the padding at the end, and for domain when another option restricts it or up to the stored text."
  },
  {
   "property": "C67",
   "status": "partial",
   "theorems": [
    "Verif.Props.Widen.C67_integers",
    "Verif.Props.Widen.C67_types",
    "Verif.Props.Widen.C67_sizes",
    "Verif.Props.Widen.C67_numbers",
    "Verif.Props.Widen.C67_lengths",
    "Verif.Props.Widen.C67_text_partial",
    "Verif.Props.Widen.C67_text_exact_partial",
    "Verif.Props.Widen.C67_text_violated"
   ],
   "note": "False for line and text: a string with leading control characters accepted with trimmed_min is refused without it (C67_text_violated). Proved for integers, sizes, numbers, lengths, and for line and text otherwise. C67_text_exact_partial: exactly when."
  },
  {
   "property": "C68",
   "status": "proved",
   "theorems": [
    "Verif.Props.Agree.C68_base64",
    "Verif.Props.Agree.C68_host_address",
    "Verif.Props.Agree.C68_host_name",
    "Verif.Props.Agree.C68_line_text",
    "Verif.Props.Agree.C68_url"
   ],
   "note": "host under at_least_two_labels(Disallow) accepts no address; the statement says so. IDNA and the url library are parameters."
  },
  {
   "property": "C69",
   "status": "partial",
   "theorems": [
    "Verif.Props.CaseFold.C69_ip",
    "Verif.Props.CaseFold.C69_boolean",
    "Verif.Props.CaseFold.C69_hex",
    "Verif.Props.CaseFold.C69_domain",
    "Verif.Props.CaseFold.C69_host",
    "Verif.Props.CaseFold.C69_email_partial",
    "Verif.Props.CaseFold.C69_email_exact_partial",
    "Verif.Props.CaseFold.C69_email_violated",
    "Verif.Props.CaseFold.C69_url",
    "Verif.Props.CaseFold.C69_protocol"
   ],
   "note": "False for email: the tag of an IPv6 literal must be written IPv6, so a@[ipv6:::1] is refused (C69_email_violated). Proved for all the others and for the rest of the email's host. C69_email_exact_partial: exactly when."
  },
  {
   "property": "C70",
   "status": "partial",
   "theorems": [
    "Verif.Props.DerivePanic.C70_only_numbers_partial",
    "Verif.Props.DerivePanic.C70_exact",
    "Verif.Props.DerivePanic.C70_violated"
   ],
   "note": "False: a bound like 1e999 is read as infinity and cannot be written as a literal, so that the macro panics (C70_violated). Proved: exactly which items make it panic, a number for f32 or f64 where the first wrong thing in the attribute is a range with such a bound (C70_exact); nothing else does (C70_only_numbers_partial)."
  },
  {
   "property": "C71",
   "status": "partial",
   "theorems": [
    "Verif.Props.Generated.C71_written",
    "Verif.Props.Generated.C71_determined",
    "Verif.Props.Generated.C71_sound_partial",
    "Verif.Props.Generated.C71_violated_largest",
    "Verif.Props.Generated.C71_exact_partial",
    "Verif.Props.Generated.C71_accepts_partial",
    "Verif.Props.Generated.C71_entry_points",
    "Verif.Props.Generated.C71_panics_partial",
    "Verif.Props.Generated.C71_has_impl"
   ],
   "note": "C71_written and C71_determined: the options are the written ones and no others. C71_sound_partial: every accepted string has the meaning of these options, for all validators, char_length(max = usize::MAX) excepted (C73; C71_violated_largest). C71_exact_partial, C71_accepts_partial: exactly these strings and values, where a map of phone numbers has no order. Where single properties are false of the code (C06, C24, ..) the specification states what the code accepts and says so. False in general: existence (C18: C71_has_impl says exactly when) and absence of panics (C12, C40: C71_panics_partial). validate_str of the decoding validators differs (C07). C71_panics_partial: exactly the strings that make a generated impl panic."
  },
  {
   "property": "C72",
   "status": "partial",
   "theorems": [
    "Verif.Props.Diag.C72_same_outcome",
    "Verif.Props.Diag.C72_truthful_partial",
    "Verif.Props.Diag.C72_violation_reset",
    "Verif.Props.Diag.C72_lengths_reset",
    "Verif.Props.Diag.C72_listed_names",
    "Verif.Props.Diag.C72_listed_all",
    "Verif.Props.Diag.C72_shown_words",
    "Verif.Props.Diag.C72_same_choice",
    "Verif.Props.Diag.C72_available",
    "Verif.Props.Diag.C72_choice"
   ],
   "note": "False for char_length and byte_length given together: the message says that the second is being reset although it is given once (C72_violation_reset; C72_lengths_reset says what it means). C72_truthful_partial: every other message of every validator. C72_listed_names, C72_listed_all, C72_shown_words, C72_available: the lists shown are complete. C72_same_outcome, C72_same_choice: the model with messages is the one of C53 and C63."
  },
  {
   "property": "C73",
   "status": "partial",
   "theorems": [
    "Verif.Props.LineMax.C73_no_effect_partial",
    "Verif.Props.LineMax.C73_below",
    "Verif.Props.LineMax.C73_validate_agrees",
    "Verif.Props.LineMax.C73_panics",
    "Verif.Props.LineMax.C73_wraps",
    "Verif.Props.LineMax.C73_violated",
    "Verif.Props.LineMax.C73_no_panic"
   ],
   "note": "False for char_length(max = usize::MAX): the generated code computes max + 1 (C73_violated). If that panics, every string panics (C73_panics); if it wraps, no character is read and strings with forbidden characters are accepted (C73_wraps); rustc's lint arithmetic_overflow may refuse the code instead. C73_no_effect_partial: every other maximum. C73_below: there the code is that of C23-C25. C73_no_panic: nothing else panics."
  },
  {
   "property": "C74",
   "status": "partial",
   "theorems": [
    "Verif.Props.Errors.C74_distinct",
    "Verif.Props.Errors.C74_response",
    "Verif.Props.Errors.C74_whose_words",
    "Verif.Props.Errors.C74_length",
    "Verif.Props.Errors.C74_true_partial",
    "Verif.Props.Errors.C74_violated"
   ],
   "note": "C74_true_partial: from the attribute to the displayed text, for every string validator; missing only the maximum usize::MAX, where C73 makes the text false (C74_violated). 'too short' is as true as C25 allows. Texts that are those of a library's error are not constrained. C74_distinct: the texts of one validator differ. C74_response: status 400, and the body determines the error. C74_length: the same for length. C74_whose_words: which errors show the words of a library."
  },
  {
   "property": "C75",
   "status": "partial",
   "theorems": [
    "Verif.Props.Expect.C75_true_partial",
    "Verif.Props.Expect.C75_complete_partial",
    "Verif.Props.Expect.C75_present",
    "Verif.Props.Expect.C75_violated_text",
    "Verif.Props.Expect.C75_violated_ascii",
    "Verif.Props.Expect.C75_violated_ascii_domain",
    "Verif.Props.Expect.C75_violated_labels",
    "Verif.Props.Expect.C75_violated_nan",
    "Verif.Props.Expect.C75_violated_outside",
    "Verif.Props.Expect.C75_silent_one_label",
    "Verif.Props.Expect.C75_silent_comment",
    "Verif.Props.Expect.C75_silent_local",
    "Verif.Props.Expect.C75_silent_unit",
    "Verif.Props.Expect.C75_silent_byte"
   ],
   "note": "C75_true_partial: everything that Spec.Expect.Truthful takes the text to say holds of every accepted string, from the attribute on. The property itself is false where the text says more: text says 'a line' (C75_violated_text), an 'ASCII email' may have other characters in comments and domain (C75_violated_ascii, C75_violated_ascii_domain), 'at-least-two-labels' exempts local names (C75_violated_labels), 'in 1..=5' exempts NaN (C75_violated_nan), 'not in ..' excludes nothing (C75_violated_outside). C75_complete_partial: equal texts, equal acceptance, when the options that no text mentions (Spec.Expect.SameUnsaid) are equal; C75_silent_* show for five of them that they are needed. C75_present: which validators have a text."
  },
  {
   "property": "C76",
   "status": "partial",
   "theorems": [
    "Verif.Props.Integrations.C76_present",
    "Verif.Props.Integrations.C76_sound_partial",
    "Verif.Props.Integrations.C76_exact_partial",
    "Verif.Props.Integrations.C76_inner",
    "Verif.Props.Integrations.C76_violated_endless",
    "Verif.Props.Integrations.C76_finishes",
    "Verif.Props.Integrations.C76_panics_partial",
    "Verif.Props.Integrations.C76_rocket",
    "Verif.Props.Integrations.C76_rocket_exact_partial"
   ],
   "note": "C76_present: which impls exist, from the flags written. C76_sound_partial / C76_exact_partial: the outcome for the data handed over, from the attribute on; C76_inner the same for bit, length and json, whose reading another type does; C76_rocket and C76_rocket_exact_partial for the Rocket impls; C76_finishes and C76_panics_partial. Partial because it inherits the findings: a largest maximum (C73), panics of C12 and C40, and endless deserialization of url, semver and semver_req (C76_violated_endless, C51). C76_panics_partial: exactly the data that make it panic."
  },
  {
   "property": "C77",
   "status": "partial",
   "theorems": [
    "Verif.Props.Features.C77_library",
    "Verif.Props.Features.C77_macro",
    "Verif.Props.Features.C77_generated",
    "Verif.Props.Features.C77_generated_exactly",
    "Verif.Props.Features.C77_std_partial",
    "Verif.Props.Features.C77_violated_json",
    "Verif.Props.Features.C77_aligned",
    "Verif.Props.Features.C77_variants",
    "Verif.Props.Features.C77_compile_error",
    "Verif.Props.Features.C77_default",
    "Verif.Props.Features.C77_alone"
   ],
   "note": "C77_library, C77_macro, C77_generated: every conditional name in use exists, for every request. C77_generated_exactly: which validators need the standard library in the deriving crate; C77_std_partial: all of them but json turn std on. C77_aligned, C77_variants, C77_compile_error, C77_default, C77_alone: the two feature tables agree, and what a feature brings. Partial because json, which does not turn std on, generates a bare String, which a no_std crate does not have (C77_violated_json)."
  },
  {
   "property": "C78",
   "status": "partial",
   "theorems": [
    "Verif.Props.HostText.C78_reads",
    "Verif.Props.HostText.C78_everything_partial",
    "Verif.Props.HostText.C78_from",
    "Verif.Props.HostText.C78_dot",
    "Verif.Props.HostText.C78_quad",
    "Verif.Props.HostText.C78_alike",
    "Verif.Props.HostText.C78_known",
    "Verif.Props.HostText.C78_host_partial",
    "Verif.Props.HostText.C78_email_partial",
    "Verif.Props.HostText.C78_host_exact_partial",
    "Verif.Props.HostText.C78_email_exact_partial",
    "Verif.Props.HostText.C78_violated_alike",
    "Verif.Props.HostText.C78_violated_dot"
   ],
   "note": "C78_reads: exactly what a host validator makes of the text of a readable host; C78_host_partial and C78_email_partial apply it to the values of the two validators (C78_known), C78_everything_partial to the validator without restrictions, C78_from to Host::from. False for names with a final dot, which are always refused (C78_dot, C78_violated_dot), and for names that are the text of an IPv4 address, which print like the address (C78_quad, C78_violated_alike); C78_alike: no other two hosts print alike. C78_host_exact_partial and C78_email_exact_partial: exactly which hosts are read back."
  },
  {
   "property": "C79",
   "status": "partial",
   "theorems": [
    "Verif.Props.Surface.C79_traits",
    "Verif.Props.Surface.C79_manual_partial",
    "Verif.Props.Surface.C79_violated_manual",
    "Verif.Props.Surface.C79_conforms",
    "Verif.Props.Surface.C79_inherent",
    "Verif.Props.Surface.C79_width",
    "Verif.Props.Surface.C79_test",
    "Verif.Props.Surface.C79_generic_partial",
    "Verif.Props.Surface.C79_compiles",
    "Verif.Props.Surface.C79_violated_generic"
   ],
   "note": "C79_traits: each trait once and exactly which; C79_conforms, C79_inherent, C79_width, C79_test: items. False of the manual: line and text have ValidateString and not the ValidateLength listed, length has no CollectionLength, json also has ToJsonString (C79_manual_partial is exact, C79_violated_manual). False of generic items: the headers name the type without arguments (C79_generic_partial, C79_compiles are exact, C79_violated_generic: accepted with a parameter T, but no header is a type)."
  },
  {
   "property": "C80",
   "status": "partial",
   "theorems": [
    "Verif.Props.Traits.C80_offered",
    "Verif.Props.Traits.C80_present",
    "Verif.Props.Traits.C80_same",
    "Verif.Props.Traits.C80_validate_partial",
    "Verif.Props.Traits.C80_result",
    "Verif.Props.Traits.C80_accepts_partial",
    "Verif.Props.Traits.C80_errors_partial",
    "Verif.Props.Traits.C80_numeral",
    "Verif.Props.Traits.C80_boolean",
    "Verif.Props.Traits.C80_rounds",
    "Verif.Props.Traits.C80_violated"
   ],
   "note": "C80_present, C80_offered: which items have which functions. C80_same: one outcome for all types of one input. C80_result: validators::Result. C80_accepts_partial: exactly what is accepted, and that the input itself is kept. C80_errors_partial: the error of every input that is refused and is not text. C80_numeral, C80_boolean: numerals. False for an f64 given to a number validator of f32: it is rounded first, and accepted although it may lie outside the range (C80_rounds is exact, C80_violated). validate_* of the decoding base-N validators is looser (C07). Laws assumed of the libraries: every u64 is a Bit and a Byte, f32 to f64 and back is the identity (Lawful)."
  },
  {
   "property": "C81",
   "status": "partial",
   "theorems": [
    "Verif.Props.Constants.C81_values",
    "Verif.Props.Constants.C81_names",
    "Verif.Props.Constants.C81_typed",
    "Verif.Props.Constants.C81_determined_partial",
    "Verif.Props.Constants.C81_violated_regex",
    "Verif.Props.Constants.C81_functions",
    "Verif.Props.Constants.C81_obeyed_partial"
   ],
   "note": "C81_names: exactly these constants, and nothing else changes. C81_values: each holds what the attribute says. C81_typed: the expressions have the declared types. C81_functions: must, allow, disallow and so on. C81_obeyed_partial: what the constants say holds of every accepted string; missing: char_length with the largest maximum (C73). C81_determined_partial: the constants determine the behaviour, for every validator but regex, which has none (C81_violated_regex)."
  },
  {
   "property": "C82",
   "status": "partial",
   "theorems": [
    "Verif.Props.Reproducible.C82_derive",
    "Verif.Props.Reproducible.C82_messages",
    "Verif.Props.Reproducible.C82_exact",
    "Verif.Props.Reproducible.C82_parse",
    "Verif.Props.Reproducible.C82_integrations",
    "Verif.Props.Reproducible.C82_interface_partial",
    "Verif.Props.Reproducible.C82_violated_order"
   ],
   "note": "C82_derive, C82_messages: the same verdict and message, and the same plan up to the order of countries. C82_parse, C82_integrations: the same behaviour for every input. C82_interface_partial: the same impls, functions, fields, names and types of constants; missing: the order of the countries in V_COUNTRIES and in the text that serde shows. C82_exact: when exactly the plan is the same for every order. C82_violated_order: every phone with two or more countries is a counterexample."
  },
  {
   "property": "C83",
   "status": "partial",
   "theorems": [
    "Verif.Props.Float.C83_compiles",
    "Verif.Props.Float.C83_accepts",
    "Verif.Props.Float.C83_errors",
    "Verif.Props.Float.C83_one_number",
    "Verif.Props.Float.C83_reads_decimal",
    "Verif.Props.Float.C83_nearest_unique",
    "Verif.Props.Float.C83_reads_words",
    "Verif.Props.Float.C83_reads_nothing_else",
    "Verif.Props.Float.C83_every_float",
    "Verif.Props.Float.C83_text",
    "Verif.Props.Float.C83_inside_accepted_partial",
    "Verif.Props.Float.C83_accepted_inside_partial",
    "Verif.Props.Float.C83_exclusive_partial",
    "Verif.Props.Float.C83_outside_refused_partial",
    "Verif.Props.Float.C83_other_type",
    "Verif.Props.Float.C83_f32_exact",
    "Verif.Props.Float.C83_violated",
    "Verif.Props.FloatAttr.C83_attribute",
    "Verif.Props.FloatAttr.C83_attribute_texts_partial"
   ],
   "note": "C83_compiles, C83_accepts, C83_errors: exact acceptance and errors by the IEEE value of the bits. C83_reads_decimal, C83_nearest_unique, C83_reads_words, C83_reads_nothing_else, C83_text: what a text is read as. C83_other_type, C83_f32_exact: floats of the other type. C83_inside_accepted_partial: inclusive ranges accept every text whose number is in the range as written; C83_accepted_inside_partial: a text that is accepted although its number is beyond a bound is read as the bound. Missing: that no such text is accepted, and exclusive maximums; C83_violated shows that both fail, and that an f32 validator accepts an f64 above its maximum, because the number is rounded before it is compared. C83_every_float: every float has a text. C83_exclusive_partial, C83_outside_refused_partial: the directions that hold for exclusive maximums and for Outside. C83_attribute, C83_attribute_texts_partial: the same from the attribute as it is written."
  },
  {
   "property": "C84",
   "status": "proved",
   "theorems": [
    "Verif.Props.EmailOrder.C84_email_left",
    "Verif.Props.EmailOrder.C84_email_no_host",
    "Verif.Props.EmailOrder.C84_email_host",
    "Verif.Props.EmailOrder.C84_email_validate",
    "Verif.Props.Order.C84_one_error",
    "Verif.Props.Order.C84_parts",
    "Verif.Props.Order.C84_ipv4",
    "Verif.Props.Order.C84_ipv6",
    "Verif.Props.Order.C84_ip",
    "Verif.Props.Order.C84_domain",
    "Verif.Props.Order.C84_host6",
    "Verif.Props.Order.C84_host",
    "Verif.Props.Order.C84_validate",
    "Verif.Props.TextOrder.C84_line",
    "Verif.Props.TextOrder.C84_base",
    "Verif.Props.TextOrder.C84_base_str",
    "Verif.Props.TextOrder.C84_base_decoded",
    "Verif.Props.TextOrder.C84_uuid",
    "Verif.Props.TextOrder.C84_mac"
   ],
   "note": "Spec/Order.lean lists the checks of each validator in order; C84_ipv4, C84_ipv6, C84_ip, C84_domain, C84_host6 (texts that begin with a bracket or are IPv6 addresses) and C84_host say that the list decides, C84_validate the same for validate_str. C84_one_error and C84_parts: the list and the split into host and port are unambiguous. email (Spec/EmailOrder.lean): C84_email_left when the part up to the @ is faulty (and the validator does not panic, C40), C84_email_no_host when that part is sound and no host follows, C84_email_host otherwise, C84_email_validate for validate_str. Spec/TextOrder.lean: C84_line (line and text, bounds in order; how far a string is read before it is found too long depends on the options, six lists), C84_base, C84_base_str, C84_base_decoded, C84_uuid, C84_mac (texts on which it does not panic, C12)."
  },
  {
   "property": "C85",
   "status": "proved",
   "theorems": [
    "Verif.Props.Longest.C85_at_most",
    "Verif.Props.Longest.C85_reached",
    "Verif.Props.Longest.C85_endless"
   ],
   "note": "Spec/Longest.lean: AtMost and Endless. C85_at_most and C85_endless go from the item to the generated parse_str. C85_reached: every bound but that of email is reached for all options (separators that are characters of a string); for email, what is accepted depends on the IDNA library, and an example reaches 320 bytes. domain, and host without a port, depend on the IDNA library too and are left out, as are the validators that hand the string to another library."
  },
  {
   "property": "C86",
   "status": "partial",
   "theorems": [
    "Verif.Props.Control.C86_printable",
    "Verif.Props.Control.C86_single_line_partial",
    "Verif.Props.Control.C86_email_partial",
    "Verif.Props.Control.C86_written_partial",
    "Verif.Props.Control.C86_violated_email",
    "Verif.Props.Control.C86_violated_line"
   ],
   "note": "False of the code in two cases: email with comment(Allow) accepts any characters, line breaks included, in a comment, and to_email_string writes them (C86_violated_email, for every comment text without ')' of at most 248 bytes); line with trimmed_min takes a line feed at the start (C86_violated_line, C24). C86_printable is complete; C86_single_line_partial leaves out exactly these two options and the largest maximum (C73); C86_email_partial says where control characters can be when comments are allowed; C86_written_partial is about to_email_string without comments. That IDNA refuses control characters is a hypothesis (Refuses)."
  },
  {
   "property": "C87",
   "status": "proved",
   "theorems": [
    "Verif.Props.Input.C87_string",
    "Verif.Props.Input.C87_kept",
    "Verif.Props.Input.C87_bytes",
    "Verif.Props.Input.C87_utf8",
    "Verif.Props.Input.C87_length",
    "Verif.Props.Input.C87_is_empty"
   ],
   "note": "C87_string for all validators of strings; C87_kept for those whose value is the text; C87_bytes and C87_utf8 for the base-N validators of bytes; C87_length and C87_is_empty for CollectionLength. length with equal bounds does not compile (C18) and is left out. That a returned &str or &[u8] does not change while it is borrowed is Rust's guarantee and in the trusted base."
  },
  {
   "property": "C88",
   "status": "partial",
   "theorems": [
    "Verif.Props.Uri.C88_ip",
    "Verif.Props.Uri.C88_host",
    "Verif.Props.Uri.C88_domain_exact_partial",
    "Verif.Props.Uri.C88_violated_domain"
   ],
   "note": "Complete for ip, ipv4, ipv6 (C88_ip) and host (C88_host). False of domain when an IPv4 address with a port has been accepted: the port is written twice and the URL has no port number (C88_violated_domain, a consequence of C35). C88_domain_exact_partial says that these are exactly the exceptions. The laws of IDNA are a hypothesis."
  },
  {
   "property": "C89",
   "status": "partial",
   "theorems": [
    "Verif.Props.Mailbox.C89_plain",
    "Verif.Props.Mailbox.C89_comments_partial",
    "Verif.Props.Mailbox.C89_written_partial",
    "Verif.Props.Mailbox.C89_violated_nested",
    "Verif.Props.Mailbox.C89_violated_blank",
    "Verif.Props.Mailbox.C89_violated_written",
    "Verif.Props.Mailbox.C89_violated_disallow"
   ],
   "note": "Without comments the claim about accepted strings holds (C89_plain), which also says exactly when the reader refuses. With comments it holds when no comment before the host has ( or a backslash and no blank follows a backslash in the local part (C89_comments_partial), and then for the written form too (C89_written_partial). Otherwise it is false: ((x)a@good.com(y))eve@evil.com is accepted as a@good.com and is an address at evil.com (C89_violated_nested), the same happens with a blank after a backslash (C89_violated_blank), to the written form (C89_violated_written), and the quotation marks lost under comment(Disallow) change the mailbox (C89_violated_disallow)."
  },
  {
   "property": "C90",
   "status": "partial",
   "theorems": [
    "Verif.Props.Written.C90_uuid",
    "Verif.Props.Written.C90_mac",
    "Verif.Props.Written.C90_ip",
    "Verif.Props.Written.C90_host_partial",
    "Verif.Props.Written.C90_domain_partial",
    "Verif.Props.Written.C90_violated_host",
    "Verif.Props.Written.C90_violated_domain",
    "Verif.Props.Written.C90_email"
   ],
   "note": "Complete for uuid, mac_address, ip, ipv4, ipv6 and email, under all options. False of host when IDNA converts a name to a dotted quad (C90_violated_host); C90_host_partial says that nothing else collides. False of domain because the final dot is not written (C90_violated_domain); C90_domain_partial: the port and the domain up to this dot are the same, and so are the flags unless the domain is a dotted quad. The laws of IDNA are a hypothesis."
  },
  {
   "property": "C91",
   "status": "proved",
   "theorems": [
    "Verif.Props.Sides.C91_sides",
    "Verif.Props.Sides.C91_name",
    "Verif.Props.Sides.C91_ipv4",
    "Verif.Props.Sides.C91_ipv6"
   ],
   "note": "The sides are exchanged with comments disallowed; the three theorems on hosts take the host of the email a@h, under all options, for texts without parentheses. That IDNA refuses '@' and ':' is a hypothesis."
  },
  {
   "property": "C92",
   "status": "partial",
   "theorems": [
    "Verif.Props.Prefix.C92_beginning_partial",
    "Verif.Props.Prefix.C92_refused",
    "Verif.Props.Prefix.C92_violated"
   ],
   "note": "C92_refused: always refused. The error is the same for all options (C92_beginning_partial) but byte_length with a maximum, without a minimum and with trimmed_min, where the whole string is read and its end decides between all three errors (C92_violated). The largest maximum of char_length is C73."
  },
  {
   "property": "C93",
   "status": "proved",
   "theorems": [
    "Verif.Props.Asks.C93_domain",
    "Verif.Props.Asks.C93_host",
    "Verif.Props.Asks.C93_email",
    "Verif.Props.Asks.C93_ascii"
   ],
   "note": "C93_domain, C93_host, C93_email for parsing and validating; C93_ascii is the consequence for ASCII strings. An example shows that the answer for the name does matter."
  },
  {
   "property": "C94",
   "status": "proved",
   "theorems": [
    "Verif.Props.Reach.C94_uuid",
    "Verif.Props.Reach.C94_mac",
    "Verif.Props.Reach.C94_bytes",
    "Verif.Props.Reach.C94_integer",
    "Verif.Props.Reach.C94_number",
    "Verif.Props.Reach.C94_nan",
    "Verif.Props.Reach.C94_ip",
    "Verif.Props.Reach.C94_ipv4",
    "Verif.Props.Reach.C94_ipv6",
    "Verif.Props.Reach.C94_host",
    "Verif.Props.Reach.C94_domain",
    "Verif.Props.Reach.C94_domain_ipv4",
    "Verif.Props.ReachEmail.C94_email"
   ],
   "note": "C94_uuid, C94_mac, C94_bytes, C94_integer, C94_number, C94_nan, C94_ipv4, C94_ipv6, C94_ip, C94_host, C94_domain (names), C94_domain_ipv4 (addresses), C94_email, each an equivalence."
  },
  {
   "property": "C95",
   "status": "proved",
   "theorems": [
    "Verif.Props.Numbers.C95_types",
    "Verif.Props.Numbers.C95_minus_zero",
    "Verif.Props.Numbers.C95_number",
    "Verif.Props.Numbers.C95_nearest",
    "Verif.Props.Numbers.C95_small",
    "Verif.Props.Numbers.C95_rounding"
   ],
   "note": "C95_types, C95_minus_zero: integer types. C95_number, C95_small, C95_nearest: integers and floats. C95_rounding: with an excluded maximum and an integer that f32 does not have, they differ."
  },
  {
   "property": "C96",
   "status": "partial",
   "theorems": [
    "Verif.Props.WrittenLength.C96_ipv4",
    "Verif.Props.WrittenLength.C96_ipv6",
    "Verif.Props.WrittenLength.C96_ip",
    "Verif.Props.WrittenLength.C96_host",
    "Verif.Props.WrittenLength.C96_uuid",
    "Verif.Props.WrittenLength.C96_mac",
    "Verif.Props.WrittenLength.C96_email_partial",
    "Verif.Props.WrittenLength.C96_email_all_partial",
    "Verif.Props.WrittenLength.C96_quoted",
    "Verif.Props.WrittenLength.C96_long"
   ],
   "note": "Addresses, hosts, uuid and mac_address as stated. For email it is false: C96_quoted (322 bytes), C96_long (326 bytes). Proved: at most 320, or 322 with written quotation marks, for ASCII local parts within the limit of C42 (C96_email_partial), and 576 for all (C96_email_all_partial)."
  },
  {
   "property": "C97",
   "status": "proved",
   "theorems": [
    "Verif.Props.Locality.C97_local",
    "Verif.Props.Locality.C97_hosts",
    "Verif.Props.Locality.C97_never_both"
   ],
   "note": "Spec/Locality.lean says what it is for a network validator to return a host. C97_local, C97_hosts (exactly the hosts), C97_never_both (across validators). The url library is a parameter with the contract of C46. Two ways to write one machine (a mapped IPv6 address, a name that IDNA turns into an IPv4 address) are different hosts: C27 and C59."
  },
  {
   "property": "C98",
   "status": "proved",
   "theorems": [
    "Verif.Props.Join.C98_decoded",
    "Verif.Props.Join.C98_pieces",
    "Verif.Props.Join.C98_padded_piece_first",
    "Verif.Props.Join.C98_text",
    "Verif.Props.Join.C98_line",
    "Verif.Props.Join.C98_line_bounds"
   ],
   "note": "C98_decoded, C98_pieces, C98_padded_piece_first (why padding(Allow) needs an unpadded first part), C98_text, C98_line, C98_line_bounds."
  },
  {
   "property": "C99",
   "status": "proved",
   "theorems": [
    "Verif.Props.Comments.C99_without",
    "Verif.Props.Comments.C99_with",
    "Verif.Props.Comments.C99_long_local"
   ],
   "note": "C99_without and C99_with, both from the exact language of C62; C99_long_local is the witness for the limit of 62 bytes. That IDNA refuses '@' is a hypothesis of C99_with."
  },
  {
   "property": "C100",
   "status": "partial",
   "theorems": [
    "Verif.Props.Builds.C100_checks_partial",
    "Verif.Props.Builds.C100_checks_deserialize_partial",
    "Verif.Props.Builds.C100_machines_partial",
    "Verif.Props.Builds.C100_machines_deserialize_partial",
    "Verif.Props.Builds.C100_sizes",
    "Verif.Props.Builds.C100_violated_checks",
    "Verif.Props.Builds.C100_violated_machines"
   ],
   "note": "False of overflow checks for the emails of C40 and of pointer widths for the maximum of C73 (C100_violated_checks, C100_violated_machines). Proved: these are the only exceptions. The two builds with and without overflow checks differ exactly on the strings of Panics, where the one with checks panics (C100_checks_partial), also when deserializing; two pointer widths never differ without such a maximum (C100_machines_partial, C100_machines_deserialize_partial); isize and usize are exact (C100_sizes). The libraries are assumed to answer the same in both builds."
  },
  {
   "property": "C101",
   "status": "proved",
   "theorems": [
    "Verif.Props.Canonical.C101_ipv6",
    "Verif.Props.Canonical.C101_unique",
    "Verif.Props.Canonical.C101_notation",
    "Verif.Props.Canonical.C101_ipv4",
    "Verif.Props.Canonical.C101_host",
    "Verif.Props.Canonical.C101_email"
   ],
   "note": "C101_ipv6 for the address, C101_unique: the recommendation determines the text; C101_notation, C101_ipv4, C101_host, C101_email for what the validators write. Display of the address types is the model of core::net (trusted base)."
  },
  {
   "property": "C102",
   "status": "proved",
   "theorems": [
    "Verif.Props.Variants.C102_int",
    "Verif.Props.Variants.C102_ipv4",
    "Verif.Props.Variants.C102_ipv6",
    "Verif.Props.Variants.C102_ip",
    "Verif.Props.Variants.C102_host",
    "Verif.Props.Variants.C102_domain",
    "Verif.Props.Variants.C102_domain_ipv4",
    "Verif.Props.Variants.C102_ipv4_one"
   ],
   "note": "C102_int, C102_ipv4, C102_ipv6, C102_ip, C102_host, C102_domain, C102_domain_ipv4: the set of all strings of an accepted value; C102_ipv4_one: one string without a port. C102_domain asks that the stored domain is not a dotted quad, C102_domain_ipv4 that IDNA converts no name to the stored text. uuid and mac_address are C57. FromStr of integers and addresses is the model of core (trusted base)."
  }
 ]
}