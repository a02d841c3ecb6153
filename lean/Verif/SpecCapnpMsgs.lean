import Verif.SpecCapnp
/-!
# Messages that the generated schema does not take (specification for C50)
-/
namespace BM.Spec

/-- First bytes of messages that decode, but whose value cannot always be stored in the generated message type.

* Heartbeat messages (0x8039, 0x06, 0x803B, 0x803C): counters and periods are sent as logarithms and decoded to numbers up to 65536 or to a
  text, but typed as 8-bit numbers.
* Publication messages (0x03, 0x801A, 0x8019): the credential flag is decoded to a member of an enumeration, which is converted to an
  integer, but typed as a boolean.
* Opcodes (and vendor sub-opcodes) for which the package defines no payload: the payload is decoded to `None`.
* Unknown times (0x5C and 0x5D, then five zeros): all entries are `None`.
* Gateway messages with IP addresses, which are objects of Python's `ipaddress`; the configuration (1) is also a choice without names.
* Scheduler messages whose payload is not empty: the payload is typed as a union of all payloads, but not wrapped in the name of one. -/
def capnpRejects : List (List UInt8) := [
  [0x80, 0x39], [0x06], [0x80, 0x3B], [0x80, 0x3C],
  [0x03], [0x80, 0x1A], [0x80, 0x19],
  [0x82, 0x32], [0x53], [0x82, 0x33], [0x54], [0x55], [0x56], [0x57],
  [0xF0, 0x36, 0x01, 0x00], [0xF0, 0x36, 0x01, 0x02], [0xF0, 0x36, 0x01, 0x03],
  [0xF6, 0x36, 0x01, 0x04], [0xF6, 0x36, 0x01, 0x05], [0xF6, 0x36, 0x01, 0x06], [0xF6, 0x36, 0x01, 0x08],
  [0xFC, 0x36, 0x01, 0x05], [0xFC, 0x36, 0x01, 0x06],
  [0x5C, 0, 0, 0, 0, 0], [0x5D, 0, 0, 0, 0, 0],
  [0xF0, 0x36, 0x01, 0x01], [0xF0, 0x36, 0x01, 0x08], [0xF0, 0x36, 0x01, 0x09], [0xF0, 0x36, 0x01, 0x0A], [0xF0, 0x36, 0x01, 0x0C],
  [0xE8, 0x36, 0x01, 0x01], [0xE8, 0x36, 0x01, 0x03], [0xE8, 0x36, 0x01, 0x05], [0xE8, 0x36, 0x01, 0x06], [0xE8, 0x36, 0x01, 0x07],
  [0xE8, 0x36, 0x01, 0x08], [0xE8, 0x36, 0x01, 0x09], [0xE8, 0x36, 0x01, 0x0B], [0xE8, 0x36, 0x01, 0x0D]]

/-- The message is one of these. -/
def CapnpRejects (m : List UInt8) : Prop := ∃ p ∈ capnpRejects, p <+: m

end BM.Spec
