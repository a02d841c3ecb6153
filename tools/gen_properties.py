#!/usr/bin/env python3
"""Writes /verif/properties.jsonl (one JSON object per line)."""
import json, os
B = "bluetooth_mesh/messages/"
P = []
def p(title, statement, quantifier, why, anchors):
    P.append(dict(id="C%02d" % (len(P) + 1), title=title, statement=statement, quantifier=quantifier,
                  why_tests_cant=why, anchors=anchors))

p("Opcode codec is prefix-free and invertible",
  "Opcode().build writes 1, 2 or 3 big-endian bytes; for every well-formed opcode (0x00-0x7E, 0x8000-0xBFFF, 0xC00000-0xFFFFFF) parse(build(op) + anything) returns op and consumes exactly the opcode; conversely every successful parse re-builds to exactly the consumed bytes; first byte 0x7F and truncated opcodes are rejected; no encoding of a well-formed opcode is a proper prefix of another.",
  "every integer opcode, every byte string", "2^24 opcodes followed by arbitrary tails",
  [B+"util.py:Opcode"])
p("Opcode registry is consistent",
  "No opcode number is registered for two message classes or under two names, no opcode name occurs twice, and every registered number is a well-formed opcode, so AccessMessage's table neither shadows nor loses an entry.",
  "all registered opcodes of all 23 opcode enumerations", "tests exercise chosen opcodes; a collision silently hides one message",
  [B+"__init__.py:_AccessMessage.__init__"])
p("Unknown opcodes pass through losslessly",
  "For every well-formed opcode that is not registered and every payload, AccessMessage.parse yields {opcode: number, params: payload bytes} and AccessMessage.build of that object gives back the same bytes; building {opcode, params} with an unregistered opcode always emits opcode bytes followed by params.",
  "every unregistered opcode, every payload", "unbounded payloads and 2^22 opcodes",
  [B+"__init__.py:_AccessMessage._parse", B+"__init__.py:_AccessMessage._build"])
p("Known opcodes dispatch to their own message; key spellings are equivalent",
  "A message whose bytes begin with a registered opcode is decoded by the construct registered for that opcode and is returned as {opcode: enum member, lower-cased opcode name: payload}; on building, the payload may be given under the lower-cased opcode name or under 'params' (the former wins), and the opcode as int, enum member or its name string, always with identical bytes; an unknown opcode name raises.",
  "every registered opcode, every payload value", "all opcodes times all payloads",
  [B+"__init__.py:_AccessMessage", B+"util.py:SwitchStruct"])
p("Encode-then-decode returns what the user meant",
  "For every message type covered by the wire-format specification and every user object that the specification accepts, AccessMessage.build succeeds with exactly the specified bytes and AccessMessage.parse of these bytes returns the canonical form of the object (same numbers; enum names and ints resolved to members).",
  "every specified message type, every accepted object", "domain is infinite",
  [B+"config.py:ConfigMessage", B+"generic/onoff.py", B+"generic/level.py", B+"scene.py", B+"health.py", B+"light/ctl.py", B+"light/lightness.py", B+"silvair/"])
p("A received message can be re-encoded and then reads the same",
  "For every stable message type: whatever bytes parse, the parsed object can be built, and parsing the result returns an equal object.",
  "every stable message type, every byte string", "every byte string a peer may send",
  [B+"__init__.py:_AccessMessage"])
p("Lossless message types re-encode to the received bytes",
  "For every lossless message type: if a byte string parses with no bytes left over, building the parsed object gives exactly the received bytes.",
  "every lossless message type, every byte string", "every byte string a peer may send",
  [B+"__init__.py:_AccessMessage"])
p("Building never emits bytes for an object outside the specification",
  "For every specified message type, if AccessMessage.build succeeds, the object is one the specification accepts and the bytes are the ones it prescribes: missing keys, unknown enum names or values, out-of-range integers and wrong lengths are rejected (for BitsInteger/BytesInteger fields: provided the construct library rejects overflow). Exceptions, listed with the messages they occur in (see also C47): dates given as numbers beyond the calendar, sensor settings without a known property or of a wrong length, invalid sensor descriptors, optional parts that are present but invalid (silently left out), rules of a schedule given by name, and time stamps out of range.",
  "every specified message type, every object", "all invalid objects",
  [B+"config.py:ConfigMessage", B+"util.py:EnumAdapter"])
p("Address types partition the address space and validators enforce them",
  "get_address_type assigns every 16-bit address the type that the Bluetooth Mesh ranges prescribe; each address construct accepts (on parse and on build) exactly the addresses of its allowed types and rejects all others.",
  "every 16-bit address and every integer", "65536 values times nine constructs times two directions",
  [B+"config.py:get_address_type", B+"config.py:AddressTypeValidator"])
p("Range validators enforce their bound in both directions",
  "TTL and hops <= 0x7F, heartbeat features <= 3, 12-bit integers, scene number > 0, fast period divisor <= 15: a value outside the range is rejected on build and on parse, a value inside is accepted unchanged.",
  "every integer, every byte string", "boundary completeness over all integers",
  [B+"util.py:RangeValidator", B+"config.py:TTL", B+"scene.py", B+"health.py", B+"config.py:Int12ul"])
p("Key index packing",
  "A single key index occupies two bytes, little-endian, 12 significant bits with the 4 top bits zero on build and ignored on parse; a net/app key index pair occupies three bytes equal to little-endian net + 4096*app; parse inverts build for all 12-bit indices.",
  "all pairs of 12-bit indices", "16.7 million pairs",
  [B+"config.py:SingleKeyIndex", B+"config.py:DoubleKeyIndex", B+"util.py:EmbeddedBitStruct"])
p("Key index lists",
  "Building a list of n 12-bit key indices gives 3*(n div 2) + 2*(n mod 2) bytes, and parsing those bytes returns the indices sorted in ascending order; building also sorts and empties the caller's list, so building the same object twice gives an empty list the second time.",
  "all lists of 12-bit indices of any length", "unbounded lists; a mutation side effect",
  [B+"config.py:KeyIndicesAdapter"])
p("Retransmit parameters",
  "A retransmit byte encodes count (0-7) in the low 3 bits and interval/step-1 in the high 5 bits; build accepts exactly counts <= 7 and intervals that are multiples of the step in (0, 32*step]; every byte decodes and re-encodes to itself.",
  "all counts and intervals, all bytes, step 10 and 50", "all integers for rejection",
  [B+"config.py:RetransmitAdapter"])
p("Transition times",
  "A transition time byte is 64*resolution + steps (100 ms, 1 s, 10 s, 10 min). Encoding picks the finest resolution that reaches the requested time (63 steps) and rounds so that the decoded value differs from the requested one by less than one step (all up to 1 ns of floating-point tolerance), never above it; times above 37800 s are rejected, and where the 'unknown' value is not allowed so are times in the last half step (62.5 to 63 steps) of each resolution. Every byte parses; a parsed time re-encodes to a byte with the same value, except 43 steps of 100 ms which re-encode as 42 steps, and 63 steps, which parse but do not re-encode where the unknown value is not allowed.",
  "all durations, all bytes", "all real durations; floating point",
  [B+"generics.py:TransitionTimeAdapter"])
p("Delays",
  "A delay byte n decodes to n*5 ms; re-encoding a decoded delay gives the same byte except for exactly 18 byte values, where it gives n-1; delays outside the byte range are rejected.",
  "all bytes", "floating-point truncation", [B+"generics.py:Delay"])
p("Optional tails of named selects",
  "For each message with an optional and a minimal form: an object that can be encoded in the optional form is; otherwise, if its mandatory part is valid, the minimal form is silently emitted (in particular when an optional field is missing or invalid); parsing takes the long form when enough bytes are present.",
  "every object, every byte string", "arbitrary invalid optional values",
  [B+"util.py:NamedSelect", B+"generic/level.py", B+"generic/onoff.py", B+"light/ctl.py", B+"light/lightness.py"])
p("Decimal-scaled property values survive a round trip",
  "For every scaled sensor/device property and every raw integer, signed or unsigned, that its wire type can hold, decoding to a float and re-encoding gives back the same raw integer; where a value is reserved for 'unknown', the all-ones raw value maps to the float maximum and back; a requested value is rounded to the nearest step. Hence every property of the dictionary re-encodes to the bytes it was read from, except presence_detected, whose nonzero bytes re-encode as 1.",
  "all raw values of every scaled property", "2^24 or 2^32 raw values in floating point",
  [B+"util.py:DefaultCountValidator", B+"properties.py"])
p("Log-encoded fields",
  "Heartbeat count/period: raw n in 1..max decodes to 2^(n-1), 0 to 0, 0xFF to infinity where allowed, other values are rejected; encoding a positive integer v gives floor(log2 v)+1 when within the maximum and is rejected above, so decode(encode v) is the greatest power of two not above v.",
  "all raw bytes, all integers", "floating-point logarithm", [B+"util.py:LogAdapter", B+"config.py"])
p("Bit lists (feature sets)",
  "Building a feature set and parsing it back returns exactly the members that are representable (0..15); larger members are silently dropped; every 2-byte value parses to a set that builds back to the same 2 bytes.",
  "all finite sets of integers, all 2-byte strings", "2^16 subsets and larger members",
  [B+"util.py:BitListAdapter", B+"config.py:ConfigHeartbeatPublicationSet"])
p("Marshalled sensor data header",
  "For length 1..16 and 11-bit property ids (format A), and for length 1..128 and 16-bit ids (format B), the sensor data header round-trips and has the specified bit layout; header values outside are either rejected or - format A with length 17..128 - silently emit a header that decodes to different values.",
  "all formats, lengths and property ids", "three-dimensional domain with silent corruption outside",
  [B+"sensor.py"])
p("Greedy lists terminate and take everything well-formed",
  "Parsing any greedy list (subscription lists, key indices, sensor settings, property lists, ...) terminates on every input, consumes a prefix of the input, and returns the maximal sequence of elements; whole-multiple inputs of a fixed-size element are consumed entirely.",
  "every byte string", "unbounded inputs", [B+"config.py", B+"generic/property.py", B+"scene.py", B+"sensor.py"])
p("Registered opcodes without a payload definition drop their payload",
  "Exactly the listed registered (sub)opcodes (sensor column/series get/status, cadence set/status, some Silvair sub-opcodes) have no payload construct; a message with one of them parses with payload None, leaving any payload bytes unread, and builds to the bare opcode whatever payload is given. All other registered opcodes and sub-opcodes have a payload construct.",
  "all registered opcodes and subopcodes", "completeness over all tables", [B+"sensor.py", B+"silvair/"])
p("Time status/set round trip",
  "Building a Time Set/Status for a representable local time, uncertainty, TAI-UTC difference and zone offset and parsing it returns the instant within 2.05 ms, exactly the same difference, offset and authority, and the uncertainty rounded down to 10 ms; the wire seconds are the UTC seconds since 2000 less the zone offset. Times in the last 2.1 ms of a second or with an uncertainty of 2.57 s or more are silently sent as bare seconds, which no receiver can read. TAI seconds 0 parse to all-None fields, which cannot be built again. A received time is readable exactly if its zone is below +24 h and it lies in the calendar, and is then re-sent unchanged, except for 18 uncertainty values re-sent one unit lower.",
  "all 40-bit TAI seconds, all subsecond/uncertainty/zone bytes", "2^40 instants", [B+"time.py:TimeAdapter"])
p("Emergency-lighting timestamps",
  "An emergency-lighting test time stamp parses exactly if its reserved bit is zero and it lies in the calendar; building a representable time stamp and parsing it returns the instant to the second (fractions are dropped), the zone and the TAI-UTC difference; a received time stamp is re-sent as the same bytes unless its UTC time lies past the end of the calendar, when it is rejected.",
  "all timestamps", "2^40 instants", [B+"silvair/emergency_lighting_test.py"])
p("MAC and IP address fields",
  "MAC addresses round-trip between 6 bytes and lower-case colon notation; IPv4 fields accept dotted strings on build, but the IPv4Address objects returned by parse are not accepted by build: a received DNS/IP/gateway address message is not re-encodable, and a received gateway configuration is re-encoded silently without its addresses.",
  "all 6-byte and 4-byte values", "2^48 values", [B+"util.py:MacAddressAdapter", B+"util.py:IpAddressAdapter", B+"silvair/gateway_config_server.py"])
p("Enum fields",
  "An enum field parses only the values of its enumeration and builds identically from the member, its integer value and its name; anything else is rejected.",
  "every enumeration in the package, every value", "complement of each enumeration is infinite", [B+"util.py:EnumAdapter"])
p("Composition data pages",
  "Composition data pages 0, 1 and 2: element and item counts are recomputed from the lists on build (whatever the caller put in the count keys); build then parse returns the same lists; received pages re-encode to the same bytes.",
  "all element/model lists of any length", "unbounded nested lists", [B+"config.py:CompositionDataPage0", B+"config.py:CompositionDataPage1", B+"config.py:CompositionDataPage2"])
p("Recurrence-rule scheduler messages",
  "RRule messages round-trip through their bit-packed date/time, key list and rule encodings; integers and members are required for the rule id and subopcode - with a string the payload is silently dropped (RRule) and only the identifier is written. Rule lists are read up to the first invalid rule; the elements of rule and entry sets may be written in any order; date/times are not checked against the calendar.",
  "all rules and date/times", "bit-packed product domain", [B+"silvair/rrule_scheduler.py"])
p("Wire sizes",
  "Each fixed-size message, when built, occupies its opcode and exactly its specified number of bytes (provided the library rejects integers that do not fit their field); parsing a lossless one consumes exactly that number and needs them all.",
  "every fixed-size message, every accepted object", "all objects", [B+"config.py", B+"generic/", B+"light/", B+"silvair/"])
p("Case conversion is invertible on field names",
  "snakecase(camelcase(name)) == name exactly for the empty name and for names made of lower-case words separated by underscores in which every word after the first one is letters then digits and a one-letter word is not followed by a word with just one letter; in particular for every registered message name and every field name of the package except GATT_proxy, 'app key indices' and the private _rfu. to_snakecase_dict(to_camelcase_dict(v)) keeps structure and public keys and drops only private keys; the dictionaries it produces for dates and times denote, given back to the encoders, the same date, instant and offset.",
  "every string; every dictionary whose keys survive; every representable date, instant and whole-minute offset", "unbounded names and nesting, regular-expression semantics, all dates", [B+"util.py:camelcase", B+"util.py:snakecase", B+"util.py:to_case_dict"])
p("Decoding is total and deterministic up to errors",
  "AccessMessage.parse on any byte string terminates with either a value or an exception (no greedy list loops for ever); for all fixed-size message types trailing extra bytes never change the parsed value and are left unread.",
  "every byte string", "all byte strings", [B+"__init__.py:_AccessMessage"])
p("Parsing from a non-zero stream offset",
  "AccessMessage.parse_stream on a stream positioned at offset o decodes unknown opcodes from o, but decodes known ones from the beginning of the stream (seek(0)); it therefore agrees with parse of the remaining bytes only when o = 0 or the opcode is unknown.",
  "every stream and offset", "all offsets and contents", [B+"__init__.py:_AccessMessage._parse"])
p("Vendor sub-opcodes dispatch to their own sub-message",
  "In a Silvair vendor message the byte after the opcode selects the sub-message: the rest is decoded by the construct registered for that sub-opcode and reported under the lower-cased sub-opcode name; a missing or unknown sub-opcode is an error. On build the sub-opcode may be an int or member, the payload is taken from the key with the sub-opcode's name, else from 'payload', and a missing payload or an unknown sub-opcode is an error.",
  "the seven vendor models with named sub-messages, every sub-opcode, every payload", "all sub-opcodes times all payloads and all unknown values",
  [B+"util.py:SwitchStruct", B+"silvair/"])
p("Messages survive the dictionary (JSON) form",
  "A parsed message converted with to_camelcase_dict and back with to_snakecase_dict (member names, container names and private keys are lost) is accepted by build in place of the parsed object and gives the same bytes, for every message type except config_gatt_proxy_set/status and config_sig_model_app_list (whose field names do not survive) and every value without byte strings and durations; received keys (byte strings become hexadecimal text) and GATT proxy states in that form are rejected.",
  "every message type, every received message", "all messages times all values, nested to any depth", [B+"util.py:to_case_dict", B+"util.py:to_camelcase_dict", B+"util.py:to_snakecase_dict", B+"__init__.py:_AccessMessage"])
p("Types in the Cap'n Proto schema hold all the values",
  "The schema generator gives an integer construct of 1 to 64 bits the smallest Cap'n Proto integer type of the same signedness that holds all the numbers the construct can read (and the construct reads exactly the numbers of its width); wider constructs get a type that does not exist. Adapters are not looked at: the exponential counts of heartbeat messages get UInt8 although they reach 32768.",
  "every integer construct of any width, every value", "unbounded widths and values", [B+"capnproto/generator.py:Visitor.make_type"])
p("Ordinals in the Cap'n Proto schema are unique and consecutive",
  "In every struct of a generated schema the field ordinals are 0, 1, 2, ... in the order of the lines, without repetition or gap, however unions are nested, and braces are balanced.",
  "every set of message constructs", "unbounded nesting and number of fields", [B+"capnproto/generator.py:generate"])
p("The Cap'n Proto schema is closed and mirrors the messages",
  "If every leaf has a type, generation fails only when a union has the name of a field of the same struct; otherwise every type mentioned is a Cap'n Proto type, a struct of the schema (or of a message), or a list of these; field names of a struct and of a union are distinct. For a message made of an opcode and a switch over payload structs the result is: AccessMessage with the opcode and a union of one field per opcode, and one struct per payload with the public fields, camel-cased, in order, with their types. Anonymous structs of one message share a name and are merged; a struct used both inside and outside of unions is printed twice.",
  "every set of message constructs", "unbounded recursive traversal with a mutable stack and shared dictionaries", [B+"capnproto/generator.py:convert", B+"capnproto/generator.py:Visitor", B+"capnproto/generator.py:generate"])
p("Message classes and AccessMessage agree; the payload has a second name",
  "XMessage.parse accepts exactly the bytes its compiled form inside AccessMessage accepts and yields the same entries, and both build the same bytes. A message parsed by its class answers m['params'] (m['payload'], m['data'], m['parameter']) with the payload stored under the lower-cased opcode name, although that name is not among its keys and m.get() does not know it; AccessMessage.parse results have no such second name. Assigning to the second name changes neither what the message answers nor what is built; assigning to the named payload is seen under both names; replacing the opcode of a parsed message re-sends the old payload under the new opcode, whereas the same entries in a plain dictionary raise KeyError. Properties (property_value) and sensor settings (sensor_setting_raw) have a second name in the same way.",
  "every message class, vendor sub-message, composition page and debugV2 parameter; every byte string and assigned value", "all messages, all assignments", [B+"util.py:AliasedContainer", B+"util.py:SwitchStruct", B+"properties.py:PropertyMixin", B+"sensor.py:SensorSettingRawMixin"])
p("The publication period",
  "Every received publish_period octet is accepted, and number_of_steps * step_resolution.multiplier is the period the octet denotes (six bits of steps, two bits of resolution: 100 ms, 1 s, 10 s, 10 min). A resolution (member, number or name) with fewer than 64 steps is written as one octet denoting that period; other resolutions and 64 steps or more are refused (provided the library rejects integers that do not fit their field).",
  "every octet; every resolution and number of steps", "all values including those out of range", [B+"config.py:PublishPeriod", B+"config.py:PublishPeriodStepResolution"])
p("Dates count the days of the Gregorian calendar",
  "The dictionary form of a date property is accepted exactly for the dates of the calendar (years 1 to 9999); 1 January 1970 is written as 0 and each day as one more than the day before, so n days after the epoch (to the end of 9999) is written as n and n is read as that date. The dictionary form of an instant (time messages) denotes the days before its date plus the time of day less the UTC offset, and is refused when a member is out of range.",
  "every date, time of day and offset", "three and a half million dates, arithmetic on leap years", [B+"properties.py:DateAdapter", B+"time.py:TimeAdapter"])
p("Assigned numbers of states, locations and properties",
  "A field that carries an enumerated state reads a number as the member with the name the Bluetooth specifications (or the vendor) assign to it, rejects every number without an assigned name, writes a name as its assigned number and refuses every other string; for all status codes, features, key refresh phases, credentials, publish resolutions, battery flags, access rights, sampling functions, scene status codes, time roles, light distributions and sources, weekdays and recurrence rule parts, emergency and gateway states, debug parameters, the 273 element locations and the 155 device properties.",
  "every enumeration, every number and every string, whatever integer construct carries it", "all strings and unbounded integers; tables of several hundred names", [B+"util.py:EnumAdapter", B+"config.py:StatusCode", B+"config.py:GATTNamespaceDescriptor", B+"properties.py:PropertyID"])
p("Building changes the caller's object only so far that building it again gives the same bytes",
  "After AccessMessage.build(obj), successful or not, building obj again gives the same bytes or the same error, for every registered message without a key index list, although obj may have changed: a string opcode has become the member, and numeric uncertainties and TAI-UTC differences next to dates have become timedeltas. In all other messages with a numeric opcode, and for unregistered opcodes, obj is left as it was. The four messages with a key index list empty the caller's list: the second build silently sends the message without keys.",
  "every registered message, every object, successful or failing builds", "all objects and histories of two builds", [B+"__init__.py:_AccessMessage._build", B+"time.py:TimeAdapter", B+"config.py:KeyIndicesAdapter", B+"silvair/emergency_lighting_test.py:TimestampAdapter"])
p("Relaying messages with transition times",
  "A received message with an optional transition time and delay (or remaining time), parsed and built again, is sent with the same mandatory part; the optional part is sent if it was received, the time rewritten in the finest resolution that can express it (the same duration, but 4.3 s becomes 4.2 s) and the delay the same or 5 ms shorter (18 of the 256 octets). A set message or scene status with the unknown time (63 steps) is silently sent without its optional part. Any number of hops succeeds and the message does not change any more after four of them (a delay of 580 ms loses 5 ms at each of four hops).",
  "every set and status message with a transition time, every payload, any number of hops", "all payloads and unbounded sequences of hops; floating point", [B+"generics.py:TransitionTimeAdapter", B+"generics.py:Delay", B+"util.py:NamedSelect", B+"generic/level.py:GenericLevelSet", B+"scene.py:SceneStatus"])
p("Values of properties have fixed sizes; received values sent again",
  "Each of the 155 device properties has a fixed size: a value is read if there are that many bytes and they are valid (text in UTF-8, dates up to the end of 9999, known light distributions and sources), whatever follows, and refused otherwise; sending it again gives the same bytes (and 1 for any presence). A generic property message is read if and only if its identifier is known and a value follows. Every sensor status message is read as the one list of values it consists of, up to the first that cannot be read; values of unknown properties are kept as they are. Sent again, each value keeps its header but loses the bytes that followed it, so the message is unchanged if the lengths in the headers are the sizes of the properties, and damaged otherwise.",
  "every property, every payload of sensor status and generic property messages", "all payloads; lists of unbounded length", [B+"properties.py:PropertyDict", B+"properties.py:PropertyMixin", B+"sensor.py:_SensorData", B+"sensor.py:SensorSettingRawMixin"])
p("Debug parameters, list sizes and entry sets sent again",
  "Every message of the second debug model with a known sub-opcode and at least three bytes is read, as the one list of parameters it consists of (numbers of fixed sizes, text in UTF-8 after its length, bytes after their number, or the empty value) up to the first that cannot be read; each is shown with its kind and, under the name of the kind, its value; other messages are errors. Unless a floating point value is not a number, what was read is sent again as the same bytes. A size status of the replay list with two or three bytes is read in the old form and sent again in the new form with the same numbers; with four or more it is sent unchanged. Any list of schedule entries is read as a set, and what is sent again has the same numbers, each once.",
  "every payload of these messages", "all payloads; lists of unbounded length", [B+"silvair/debugV2.py:DebugV2Parameter", B+"silvair/debugV2.py:DebugV2SubMessage", B+"silvair/debug.py:ArapListSizeStatus", B+"silvair/rrule_scheduler.py:ScheduleRegisterListStatus"])
p("What is sent determines the message; exactly the specified payloads are accepted",
  "Two specified messages with the same bytes are of the same type and sub-opcode and report the same value; so if two objects are built to the same bytes, their payloads mean the same. Whatever is built for a registered opcode, given by number, member or name, starts with that opcode and can be taken for no other. For messages decoded and encoded without loss, a byte string is read completely if and only if its payload is a specified encoding; with a fixed size, if and only if there are at least that many bytes and they are a specified encoding.",
  "all pairs of messages and objects, all byte strings", "pairs of arbitrary messages; every byte string", [B+"__init__.py:_AccessMessage", B+"util.py:SwitchStruct", B+"util.py:OpcodeMessage"])
p("What is sent for objects outside the formats",
  "For the messages that also send objects outside of their format (properties, sensor settings, values and descriptors, network diagnostic publications, schedule entries) an object is sent if and only if it is one of a specified list, as the specified bytes: a date as a number of days after 9999 is sent although no receiver accepts it; an empty dictionary instead of a setting's record is sent as nothing; a setting whose property is given by name, or unknown, is sent as its raw bytes; a sensor value is sent with the length given, whatever its real length, and lengths from 17 to 128 in format A overwrite the identifier, so the header names a shorter value of another property; an object that does not fit the long form is sent in the short form, in particular a publication with features out of range is sent without them; a rule given by name is sent without its parameters (provided the library rejects integers that do not fit their field).",
  "every object under the opcodes of these messages", "all objects, including invalid ones", [B+"properties.py:PropertyMixin", B+"properties.py:DateAdapter", B+"sensor.py:SensorSettingRawMixin", B+"sensor.py:_SensorData", B+"silvair/rrule_scheduler.py:Rules", B+"silvair/network_diagnostic_server.py:NetworkDiagnosticSetupServerPublicationSet"])
p("Exceptions raised while decoding",
  "If AccessMessage.parse raises, the exception is one of the decoding library's (data too short, value not allowed, no alternative fits), except for a fixed list of messages: generic property messages may also raise ValueError (unknown identifier), OverflowError (date after 9999) and a text decoding error, sensor settings the latter two, time set and status KeyError (five to nine bytes), ValueError and OverflowError (zone or time outside the calendar), three debug fault statuses, the firmware version, the gateway's server address and configuration status a text decoding error. Each of these does occur. So a handler for the library's exceptions around parse is enough for all other messages and not for these.",
  "every byte string", "all byte strings; the absence of an exception class", [B+"__init__.py:_AccessMessage._parse", B+"properties.py:PropertyMixin", B+"properties.py:DateAdapter", B+"time.py:TimeAdapter", B+"silvair/debug.py:LastSwFaultStatus", B+"silvair/gateway_config_server.py:ConfigurationSetServerAddrAndPortNr"])
p("Times passed on as plain dictionaries",
  "The report of a received time (TIME_SET, TIME_STATUS) or of an emergency-lighting test status, converted with to_camelcase_dict and to_snakecase_dict, is a plain dictionary in which the date is a dictionary of calendar parts and the TAI-UTC difference a float number of seconds. As it is, it is rejected by build (AttributeError; SelectError for a test status). With the types of the Cap'n Proto schema - the difference an integer, the zone offset an integer or float number of minutes, the uncertainty a single-precision number - it is sent as the bytes that were received, except that 18 values of the uncertainty are sent one unit (10 ms) lower and that reserved bits are cleared.",
  "every received time and test status that the decoder accepts (for test statuses: whose UTC time is in the calendar), every trailing bytes, every float within 0.4 microseconds of the reported uncertainty",
  "40-bit seconds, zones, differences and fractions go through floating-point and calendar conversions in both directions; tests convert a handful of dates",
  ["bluetooth_mesh/messages/time.py: TimeAdapter", "bluetooth_mesh/messages/silvair/emergency_lighting_test.py: TimestampAdapter", "bluetooth_mesh/messages/util.py: to_camelcase_dict, to_snakecase_dict, NamedSelect"])
p("Every decoded message can be stored in the generated Cap'n Proto schema",
  "The Cap'n Proto schema generated from the package's messages accepts AccessMessage.parse(b), converted with to_camelcase_dict, as new_message(**params): every key is a member of the struct it is assigned to, every value is of the member's type and in its range, and no union gets two members. This holds for every message with a registered opcode except those that begin with one of 39 listed opcodes or sub-opcodes: heartbeats (logarithms and texts in 8-bit numbers), publications (the credential flag, an enumeration, typed as a boolean), opcodes without a payload (None), times of all zeros (None), the gateway's IP addresses and configuration, and scheduler messages with a payload. Each of the 39 does contain a message that is decoded but rejected by the schema. Messages with unregistered opcodes are decoded but never accepted.",
  "every byte string that decodes", "all byte strings of all 23 models against a schema of several hundred structs; the tests pass a few hundred samples through the schema",
  [B+"capnproto/generator.py:generate", B+"util.py:to_camelcase_dict", B+"__init__.py:_AccessMessage._parse", "tests/test_capnproto.py:test_parse_capnproto"])

with open("/verif/properties.jsonl", "w") as f:
    for x in P: f.write(json.dumps(x) + "\n")
print(len(P))
