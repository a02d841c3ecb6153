# Formal model of python-bluetooth-mesh-messages — design

## 1. Approach

The repository is a set of declarative `construct` 2.9.45 definitions plus hand-written adapters.
We model it as a *shallow embedding* in Lean 4 (all modules under `lean/Verif/`, namespace `BM`):

**Model of the code**

* `Py` — Python values (`Val`), dictionaries (insertion-ordered association lists), exceptions (`Err`),
  and the handful of Python primitives used (`int`-likeness, hashing, iteration, truthiness). `Str` — string methods.
* `Num`, `Float` — bytes, bits and numbers; IEEE-754 doubles as exact rationals followed by a concrete
  round-to-nearest-even to 53 bits (`rnd`).
* `Construct` — one Lean definition per `construct` combinator used by the repository
  (`FormatField` integers, `BytesInteger`, `BitsInteger`, `Flag`, `Bytes`, `GreedyBytes`, `Struct`, `Embedded`, `BitStruct`,
  `Restreamed`/`Reversed`, `GreedyRange`, `Array`, `PrefixedArray`, `Prefixed`, `Switch`, `Select`, validators, `Rebuild`, `Default`,
  `Padding`, `StopIf`, ...). A construct is a pair `parse : Lib → Ctx → stream → Except Err (Val × stream)` and
  `build : Lib → Ctx → Val → Except Err (stream × Val)`; streams are `List UInt8`, or `List Bool` below `Bitwise`.
* `Util`, `Config`, `Generics`, `Property`, `PropertyDict` (generated), `Sensor`, `Time` (also the emergency-lighting tests), `Addr`, `Silvair`, `RRule`
  (also debug V2), `Case` (case conversion, calendar), `Enums`, `Tables`, `Names` and `FieldNames` (generated by `tools/`), `Registry`, `Access`, `Effects` (changes to the caller's object) — the repository's own code,
  definition by definition, each with a citation of file and lines.

**Specification**

* `Spec` — an independent, relational wire-format language: a format is a relation
  `F u b v` : "the user value `u` is encoded as the bytes `b`, which denote the canonical value `v`".
  `SpecMesh`, `SpecConfig`, `SpecGenerics`, `SpecProperty`, `SpecSensor`, `SpecSilvair`, `SpecTime`, `SpecPages`, `SpecBare` give each message type a format
  written from the documented layout; no parser or builder is involved. `SpecAccess`, `SpecAll` collect them: `Spec.messages` lists every
  message type with its opcode, sub-opcode, format, fixed size (if any) and the `odd` objects excluded from C08 (objects that the
  code accepts although they are outside the specification; each kind is described where it is defined).

**Refinement**

* `Meets M e c G` (`Meets`, `MeetsComb`, `MeetsList`, ...): construct `c` implements format `G`. Its fields: `enc` (every specified object is
  built as specified), `dec` (specified bytes parse to the canonical value; `e = true` when the format only works at the end of the
  message), `sound` (whatever is built is specified), `refl` (canonical values are specified), `inv`/`exact` (whatever parses is
  specified / re-encodes to the same bytes), `nodiv` (parsing terminates). The mode flags `M = ⟨T, U, S, X⟩` say which hold: `U` — `sound`
  needs a library that rejects overflow; `S` — `inv` holds; `X` — `exact` holds. `lossless`, `stable` and `plain` message types differ in `S`, `X`.
  `MeetsBut odd` is the same with `sound` only for objects that are not `odd`.
* `Covers`, `ServedAll`, `AccessLemmas` lift this over `AccessMessage`'s table.
* `Props/*` — the property theorems (named `Cnn_...`), each with non-vacuity examples. `Witness` shows that the assumptions (`Lib`, `Platform`) can be met.

## 2. Trusted base

* Lean 4.33.0's kernel; axioms used by the theorems are at most `propext`, `Classical.choice`, `Quot.sound`
  (reported per theorem by `#print axioms` in the gate).
* The reading of the repository source (every definition cites file and lines).
* The semantics of `construct` 2.9.45, which is not available in the sandbox: `Construct.lean` states it definition by
  definition. Where the library's behaviour on overflowing bit/byte integers could not be confirmed, it is a *parameter*
  (`Lib.bitsOvf`, `Lib.bytesOvf`; only "negative numbers in unsigned fields raise" is assumed) and theorems hold for every choice, or name the
  assumption (`Lib.Strict`: overflow raises).
* CPython semantics of the primitives in `Py.lean` and `Str.lean`, IEEE-754 double arithmetic as in `Float.lean`.
  `math.log`, `**` on floats and `struct.pack` of floats are parameters (`class Platform`) with these assumptions only: `log(2^k, 2)` is exact for `k ≤ 17`,
  `log(v, 2)` for other integers below 2^17 stays 2^-20 away from the neighbouring integers, and is ≥ 17 above; `1.1 ** k` has relative error
  ≤ 2^-40 and `log(q, 1.1)` is within 0.3 of `k` for `q` within 2.5 % of `1.1^k`; packing a float gives its width in bytes, and packing a float that
  was read and is not a NaN gives the bytes it was read from.
* Strings are ASCII where `lower`/`upper`/`title` or the case-conversion regular expression is concerned.

Not modelled: `construct.compile()` code generation of the library's own constructs (compiled and interpreted parsers are taken to agree;
of the package's own `SwitchStruct` both forms are modelled and proved to agree, C38),
documentation attributes (`__construct_doc__`), `sizeof`, of the Cap'n Proto schema generator (`capnproto/generator.py`) the table of variable names (`VariableNames`) and the extraction of the constructs themselves (the model starts from trees that keep what the generator looks at), Python object identity except where a property is about mutation,
performance.

### Conformance with the repository's own test vectors

`tools/gen_conformance.py` extracts, as text, the vectors of `/repo/tests` (opcode, bytes, dictionary) and writes a Lean file that *evaluates* the
model on them (`python3 tools/gen_conformance.py /tmp/Conf.lean; cd lean; lake env lean /tmp/Conf.lean`). All 1044 checks agree. This is a
test of the model's fidelity (the code itself cannot be run here), not part of any proof, and is not part of the build.

## 3. Plan per property

| id | model | proof |
|----|-------|-------|
| C01 | `opcodeParse`, `opcodeBuild` | arithmetic, all integers/byte strings |
| C02 | opcode tables (generated from the source text) | `decide +kernel` over the complete finite tables |
| C03, C04 | `accessParse`, `accessBuild`, `switchStruct` | case analysis on the table lookup |
| C05–C08 | `Meets M e con fmt` for each message type | compositional lemmas, one per combinator, lifted over the message table |
| C09, C10 | `getAddressType`, validators | arithmetic |
| C11 | `EmbeddedBitStruct` with `Reversed` | bit-list/number lemmas |
| C12 | `KeyIndicesAdapter` | induction on the list, permutation/sortedness of insertion sort |
| C13 | `RetransmitAdapter` | arithmetic; float division exact for the values involved |
| C14, C15 | float model | complete enumeration of bytes by kernel evaluation; real-valued bounds by arithmetic |
| C16 | `NamedSelect` | `meets_select` with length/required-key side conditions |
| C17 | `DefaultCountValidator` | relative-error bound of rounding, all raw values |
| C18 | `LogAdapter` | `math.log` a parameter with accuracy hypothesis; integer logarithm |
| C19 | `BitListAdapter` | list lemmas |
| C20 | sensor header | arithmetic |
| C21 | `greedyRange` | well-founded recursion on the stream length |
| C22 | case tables | `decide` |
| C23, C24 | time adapters | integer arithmetic on microseconds; float parts enumerated |
| C25 | adapters | hex/decimal digit lemmas |
| C26 | `enumAdapter` | case analysis |
| C27, C28 | context-dependent structs | bespoke induction |
| C29 | `LenEq` lemmas | compositional |
| C30 | `Case`: `camelcase`, `snakecase` (the regular expression as a scanner), `to_case_dict`, `Calendar` | induction on words and on values; calendar arithmetic |
| C31 | totality of the Lean functions; `dec` for all tails | by construction + `Meets` |
| C32 | `accessParseAt` | counterexample and agreement theorem |
| C33 | `subMessage`, `switchStruct` | case analysis on the sub-opcode table |
| C34 | `Case.toCamelcaseDict`/`toSnakecaseDict` composed with `accessParse`/`accessBuild`; `Flat`: the plain form of a value is accepted in its place | compositional over formats (`Flat*.lean`), then all messages |
| C35 | `Schema.makeType` (the binary logarithm exact) and the integer constructs of the model | arithmetic; cases on the four widths |
| C36 | `Schema.generate`: `describe` over the trees of fields and unions | mutual induction over trees |
| C37 | `Schema.Visitor` with a heap of dictionaries (they are shared between stack and tables), `convert`, `generate` | invariant of the visitor by mutual induction over constructs; explicit states for the shape of `SwitchStruct` |
| C38 | `Alias`: `Container` (entries, original, alias), `switchParse`/`switchBuild` (interpreted `SwitchStruct`) beside `switchStruct` (compiled) | equality of both forms for any key construct; case analysis on the container |
| C39 | `publishPeriod`, `multiplier` | bit-list lemmas, all octets and values |
| C40 | `dateEncode`, `Time.dictDate`; specification: `nextDay` iterated from the epoch | induction on the number of days |
| C41 | `enumDecode`, `enumEncode` over every value enumeration of `Enums`; specification: the tables of `SpecNumbers` (written from the Bluetooth specifications, ascending) | equality or permutation of the tables, distinct names |
| C42 | `Effects.objectAfter`: the caller's object after `AccessMessage.build`, from the four assignments in the package; `accessBuild` twice | the adapters read the same from the changed object; structs that read the same values write the same bytes |
| C43 | `accessParse` then `accessBuild` of the 25 messages of C16, iterated | what is read is related to the format member by member (`RelC`, `RelIs`); the time and delay octets by the theorems of C14 and C15 |
| C44 | `propertyDict`, `Sensor.data`, `propertyMixin` in `accessParse`/`accessBuild` | every construct of the dictionary is shown to read exactly its size (`ReadsC`, by walking the dictionary); the sensor payload is described by an inductive relation `Readings`, shown to determine the values uniquely |
| C45 | `DebugV2.subMessage`, `Debug.arapListSizeStatus`, `RRule.listStatus` in `accessParse`/`accessBuild` | the payload is described by an inductive relation `Params` (kind, bytes of the value), shown to determine the list; every kind is shown to read exactly its values (from the lossless formats of C05; floats from the assumption about packing), then induction over the list and `C21_exactly`; sizes by cases on the number of bytes; entry sets from `C28` |
| C46 | `accessParse`, `accessBuild`, all message types of `Spec.messages` and `Spec.bare` | decoding is a function, so C05 (decoding of specified encodings) makes the specification unambiguous; with C08 this carries over to objects; opcodes are prefix-free (C01); acceptance from exactness of the lossless mode and C29/C31 |
| C47 | build side of `propertyMixin`, `settingCon`, `Sensor.data`, `optionalMinimal`, `RRule.rules` inside `accessBuild`; what is sent is specified in `Verif/SpecSent.lean` | `Writes c G` (under `L.Strict`, `c` builds exactly the bytes of `G`) is compositional; the exceptional constructs are unfolded, the others come from `Meets`; receivers' view from C44 |
| C48 | `accessParse` with the exception kinds of the model (`Err`); the messages that may raise others are listed in `Verif/SpecErrors.lean` | `Raises P Q c` (every outcome of `c` is an exception in `P` or a value in `Q`) is compositional and proved for every construct of the registry; a witness message for every listed exception. `.stream` stands for the library's short-read error (the compiled parsers may raise a different class for it), `.string` for the decoding error of text (`UnicodeDecodeError` in construct 2.9.45, `StringError` in later versions) |
| C49 | `TimeAdapter`, `TimestampAdapter`, `NamedSelect` with the objects produced by `toCamelcaseDict`/`toSnakecaseDict`; the schema's types are stated in the theorem (the Cap'n Proto library itself is not modelled) | C23/C24 reading theorems give the report, C30 its dictionary; calendar arithmetic (`civil`) and exactness of whole seconds and minutes in doubles give back the instant; an uncertainty within 0.4 µs rounds to the same microsecond |
| C50 | The constructs of all messages as the schema generator sees them (`SchemaTrees`, generated from the text of the modules by `tools/gen_schema_trees.py`; `Embedded` is flattened), the generator (`Schema`), `toCamelcaseDict`. What pycapnp accepts for a field (`SpecCapnp`: types, ranges, struct members, unions) is a specification of a library outside the repository and trusted; the exceptions are the small list `SpecCapnpMsgs`. | The literal schema used (`CapnpSchema`) is the output of the model's `generate` for the trees, evaluated by `tools/gen_capnp_schema.py` (an evaluation, not a theorem). `C50_accepts`: a fit predicate for each construct, proved compositionally along the model's parsers (structs, switches, selects, lists, bit structs, properties, times), instantiated for every row of every opcode table. `C50_rejects`: a computable over-approximation of `Accepts` is false for a decoded message of each listed kind. |
