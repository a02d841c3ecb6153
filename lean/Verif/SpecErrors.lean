import Verif.Py
/-!
# Which exceptions decoding may raise (C48): specification
-/
namespace BM.Spec

/-- The exceptions of the decoding library: the data ends too early, a value is not allowed, no alternative of the format fits.  (These are
subclasses of `construct.ConstructError`; a guard for that class catches them.) -/
def plainErrors : List Err := [.stream, .validation, .select]

/-- The messages that may raise other exceptions: how the message begins (opcode, and sub-opcode of vendor messages), and which. -/
def otherErrors : List (List UInt8 × List Err) := [
  -- generic properties: unknown identifier (`ValueError`), date past year 9999 (`OverflowError`), text that is not UTF-8
  ([0x46], [.value, .overflow, .string]), ([0x48], [.value, .overflow, .string]), ([0x49], [.value, .overflow, .string]),
  ([0x4A], [.value, .overflow, .string]), ([0x4C], [.value, .overflow, .string]), ([0x4D], [.value, .overflow, .string]),
  ([0x4E], [.value, .overflow, .string]),
  -- sensor settings: date past year 9999, text that is not UTF-8
  ([0x59], [.overflow, .string]), ([0x5A], [.overflow, .string]), ([0x5B], [.overflow, .string]),
  -- time: five to nine bytes (`KeyError`), zone of 24 hours or more or time past year 9999 (`ValueError`), local time past year 9999
  ([0x5C], [.key, .value, .overflow]), ([0x5D], [.key, .value, .overflow]),
  -- Silvair debug: fault texts and firmware version that are not UTF-8
  ([0xF5, 0x36, 0x01, 0x0E], [.string]), ([0xF5, 0x36, 0x01, 0x13], [.string]), ([0xF5, 0x36, 0x01, 0x16], [.string]),
  ([0xF5, 0x36, 0x01, 0x1C], [.string]),
  -- Silvair gateway: server address that is not UTF-8
  ([0xF0, 0x36, 0x01, 0x06], [.string]), ([0xF0, 0x36, 0x01, 0x0C], [.string])]

/-- A message `s` may fail with the exception `e`. -/
def MayRaise (s : List UInt8) (e : Err) : Prop := e ∈ plainErrors ∨ ∃ r ∈ otherErrors, r.1 <+: s ∧ e ∈ r.2

end BM.Spec
