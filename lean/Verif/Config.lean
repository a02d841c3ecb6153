import Verif.Enums
/-!
# Model of `bluetooth_mesh/messages/config.py`
-/
namespace BM
namespace Config

/-! ### Simple adapters -/

/-- config.py:409 `SecureNetworkBeaconAdapter`. -/
abbrev secureNetworkBeacon : Con UInt8 := enumAdapter (uintLE 1) E.SecureNetworkBeacon
/-- config.py:411 `GATTProxyAdapter`. -/
abbrev gattProxy : Con UInt8 := enumAdapter (uintLE 1) E.GATTProxy
/-- config.py:413 `RelayAdapter`. -/
abbrev relay : Con UInt8 := enumAdapter (uintLE 1) E.Relay
/-- config.py:415 `GATTNamespaceDescriptorAdapter`. -/
abbrev gattNamespaceDescriptor : Con UInt8 := enumAdapter (uintLE 2) E.GATTNamespaceDescriptor
/-- config.py:417 `PublishFriendshipCredentialsFlagAdapter` (only used inside a bit struct). -/
abbrev publishFriendshipCredentialsFlag : Con Bool := enumAdapter flagBit E.PublishFriendshipCredentialsFlag
/-- config.py:419 `StatusCodeAdapter`. -/
abbrev statusCode : Con UInt8 := enumAdapter (uintLE 1) E.StatusCode
/-- config.py:421 `NodeIdentityAdapter`. -/
abbrev nodeIdentity : Con UInt8 := enumAdapter (uintLE 1) E.NodeIdentity
/-- config.py:423 `FriendAdapter`. -/
abbrev friend : Con UInt8 := enumAdapter (uintLE 1) E.Friend
/-- config.py:425 `TTL`. -/
abbrev ttl : Con UInt8 := rangeValidator (uintLE 1) none (some 0x7F)

/-- config.py:428-430 `SIGModelId`. -/
abbrev sigModelId : List (Item UInt8) := [field "model_id" (uintLE 2)]
/-- config.py:432-435 `VendorModelId`. -/
abbrev vendorModelId : List (Item UInt8) := [field "vendor_id" (uintLE 2), field "model_id" (uintLE 2)]
/-- config.py:437-440 `ModelId`. -/
abbrev modelId : Con UInt8 := namedSelect [("vendor", struct vendorModelId), ("sig", struct sigModelId)]

/-! ### Addresses -/

/-- config.py:444-453 `AddressType`. -/
inductive AddressType
  | unassigned | unicast | group | virtual | rfu | allProxies | allFriends | allRelays | allNodes
  deriving DecidableEq, Repr

/-- config.py:456-483 `get_address_type`. -/
def getAddressType (address : Int) : AddressType :=
  if address = 0x0000 then .unassigned
  else if 0xFF00 ≤ address ∧ address ≤ 0xFFFB then .rfu
  else if address = 0xFFFC then .allProxies
  else if address = 0xFFFD then .allFriends
  else if address = 0xFFFE then .allRelays
  else if address = 0xFFFF then .allNodes
  else if address.toNat &&& 0xC000 = 0xC000 then .group
  else if address.toNat &&& 0x8000 = 0x8000 then .virtual
  else .unicast

/-- The check of an `ExprValidator` over `get_address_type`.  Objects that are not integers raise in the comparison, in
`address & 0xC000` or in the `Int16ul` below it; the model raises `TypeError` at once.  For negative integers `&` of the
model differs from Python's, but those are rejected by `Int16ul` in any case. -/
def addressCheck (allowed : AddressType → Bool) (v : Val) : R Bool :=
  match asInt v with
  | some n => .ok (allowed (getAddressType n))
  | none => .error .type

/-- config.py:486-487 `AddressTypeValidator(Int16ul, *allowed_types)`. -/
abbrev addressTypeValidator (allowed : List AddressType) : Con UInt8 :=
  validator (uintLE 2) (addressCheck fun t => allowed.contains t)

/-- config.py:491-494 `UnassignedAddress`. -/
abbrev unassignedAddress := addressTypeValidator [.unassigned]
/-- config.py:496-499 `UnicastAddress`. -/
abbrev unicastAddress := addressTypeValidator [.unicast]
/-- config.py:502-504 `GroupAddress`. -/
abbrev groupAddress := addressTypeValidator [.group]
/-- config.py:506-509 `VirtualLabel`. -/
abbrev virtualLabel := addressTypeValidator [.virtual]
/-- config.py:511-514 `NotVirtualLabel`. -/
abbrev notVirtualLabel : Con UInt8 := validator (uintLE 2) (addressCheck fun t => t != .virtual)
/-- config.py:516-522 `SubscriptionAddress`. -/
abbrev subscriptionAddress : Con UInt8 :=
  validator (uintLE 2) (addressCheck fun t => !([.unassigned, .unicast, .allNodes, .virtual] : List AddressType).contains t)
/-- config.py:524-528 `StatusSubscriptionAddress`. -/
abbrev statusSubscriptionAddress : Con UInt8 :=
  validator (uintLE 2) (addressCheck fun t => !([.unicast, .allNodes] : List AddressType).contains t)
/-- config.py:530-534 `UnicastUnassignedAddress`. -/
abbrev unicastUnassignedAddress := addressTypeValidator [.unicast, .unassigned]
/-- config.py:536-541 `UnicastUnassignedGroupAddress`. -/
abbrev unicastUnassignedGroupAddress := addressTypeValidator [.unicast, .unassigned, .group]

/-- config.py:543-546 `Int12ul`: `ExprValidator(Int16ul, (obj_ & 0xF000) == 0)`. -/
abbrev int12ul : Con UInt8 := validator (uintLE 2) fun v =>
  match asInt v with
  | some n => .ok (n.toNat &&& 0xF000 = 0)
  | none => .error .type

/-! ### Composition data -/

/-- `len_(this[k])` (config.py:551): the length of a sequence in the context. -/
def lenOf (k : String) : Dict → R Val := fun ctx => do
  let v ← dgetE ctx k
  match v with
  | .list l => .ok (.int l.length)
  | .bytes b => .ok (.int b.length)
  | .str s => .ok (.int s.length)
  | .dict d => .ok (.int d.length)
  | .set l => .ok (.int l.length)
  | _ => .error .type

/-- `c[this[k]]` (config.py:553): the element count is an integer found in the context. -/
def countOf (k : String) : Dict → R Nat := fun ctx => do
  let v ← dgetE ctx k
  match asInt v with
  | some n => if 0 ≤ n then .ok n.toNat else .error .range
  | none => .error .type

/-- config.py:548-554 `CompositionDataPage0Element`. -/
abbrev compositionDataPage0Element : List (Item UInt8) := [
  field "location" gattNamespaceDescriptor,
  field "sig_number" (rebuild (uintLE 1) (lenOf "sig_models")),
  field "vendor_number" (rebuild (uintLE 1) (lenOf "vendor_models")),
  field "sig_models" (arrayC (countOf "sig_number") (struct sigModelId)),
  field "vendor_models" (arrayC (countOf "vendor_number") (struct vendorModelId))]

/-- config.py:556-563 `CompositionDataPage0`. -/
abbrev compositionDataPage0 : Con UInt8 := struct [
  field "cid" (uintLE 2), field "pid" (uintLE 2), field "vid" (uintLE 2), field "crpl" (uintLE 2),
  field "features" (uintLE 2), field "elements" (greedyRange (struct compositionDataPage0Element))]

/-- config.py:565-568 `ExtendedModelLongFormat`. -/
abbrev extendedModelLongFormat : Con UInt8 := struct [field "model_item_index" (uintLE 1), field "element_offset" (sintLE 1)]

/-- config.py:570-573 `ExtendedModelShortFormat`. -/
abbrev extendedModelShortFormat : Con UInt8 :=
  bitwise 1 (struct [field "model_item_index" (ubits 5), field "element_offset" (sbits 3)])

/-- The two list constructs of config.py:589-590, with the element count taken from the context. -/
def extendedItemsCon (fmt : Int) : Option (Con UInt8) :=
  if fmt = 0 then some (arrayC (countOf "extended_items_count") extendedModelShortFormat)
  else if fmt = 1 then some (arrayC (countOf "extended_items_count") extendedModelLongFormat)
  else none

/-- `"extended_models_items" / Bytewise(EnumSwitchStruct(Switch(this.format, …)))` (config.py:586-592 with
util.py:353-378): the list is wrapped in a dictionary under the lower-cased name of the format member.
`Bytewise` restreams the remaining bits of the enclosing `Bitwise` as bytes; the preceding members of `ModelRelationItem`
fill whole bytes, so the model runs this member on bytes (see `modelRelationItem`). -/
def extendedModelsItems : Con UInt8 where
  parse L ctx s := do
    let f ← dgetE ctx "format"
    match f with
    | .enum _ n =>
      match lookupValue E.ExtendedModelsItemFormat.members n, extendedItemsCon n with
      | some name, some c =>
        let (v, rest) ← c.parse L ctx s
        .ok (.dict [(lower name, v)], rest)
      | _, _ => .error .value
    | _ => .error .assertion
  build L ctx u := do
    let f ← dgetE ctx "format"
    match hashInt f with
    | some n =>
      match lookupValue E.ExtendedModelsItemFormat.members n, extendedItemsCon n with
      | some name, some c =>
        match u with
        | .dict d => do
          let v ← dgetE d (lower name)
          let (b, _) ← c.build L ctx v
          .ok (b, u)
        | _ => .error .type
      | _, _ => .error .key
    | none => .error .key

/-- `enum_switch_struct_len_(this["extended_models_items"])` (config.py:582, util.py:381):
`len(next(iter(arg.values())))`. -/
def firstLen (k : String) : Dict → R Val := fun ctx => do
  let v ← dgetE ctx k
  match v with
  | .dict ((_, .list l) :: _) => .ok (.int l.length)
  | .dict ((_, .bytes l) :: _) => .ok (.int l.length)
  | .dict ((_, .str l) :: _) => .ok (.int l.length)
  | .dict ((_, .set l) :: _) => .ok (.int l.length)
  | .dict ((_, .dict l) :: _) => .ok (.int l.length)
  | .dict [] => .error .stopIteration
  | .dict _ => .error .type
  | _ => .error .attribute

/-- The first byte of `ModelRelationItem` (config.py:582-584): item count (6 bits), format (1), corresponding_present (1). -/
abbrev modelRelationHead : List (Item Bool) := [
  field "extended_items_count" (rebuild (ubits 6) (firstLen "extended_models_items")),
  field "format" (enumAdapter (ubits 1) E.ExtendedModelsItemFormat),
  field "corresponding_present" (ubits 1)]

/-- A `Bitwise` part of the members of a `Struct` that fills `n` whole bytes. -/
def bitPart (n : Nat) (its : List (Item Bool)) : Item UInt8 where
  buildNone := its.all (·.buildNone)
  parse L acc s := do
    let (b, rest) ← takeN n s
    let (acc, _) ← parseItems L its acc (bytesBits b)
    .ok (acc, rest)
  build L obj ctx := do
    let (bs, ctx) ← buildItems L obj its ctx
    if bs.length = 8 * n then
      match bitsBytes bs with
      | some b => .ok (b, ctx)
      | none => .error .integer
    else .error .integer

/-- config.py:581-593 `ModelRelationItem`.  The code is one `BitStruct` whose last member is `Bytewise`; since the first
three members fill exactly one byte and `corresponding_id` is a `BitsInteger(8)` (or absent), the model splits it into a
bit-level first byte and byte-level members. -/
abbrev modelRelationItem : List (Item UInt8) := [
  bitPart 1 modelRelationHead,
  field "corresponding_id" (ifThenElseDefault
    (fun ctx => do let v ← dgetE ctx "corresponding_present"; .ok (truthy v)) (bitwise 1 (ubits 8)) (.int 0)),
  field "extended_models_items" extendedModelsItems]

/-- config.py:595-600 `CompositionDataPage1Element`. -/
abbrev compositionDataPage1Element : List (Item UInt8) := [
  field "number_s" (rebuild (uintLE 1) (lenOf "sig_models")),
  field "number_v" (rebuild (uintLE 1) (lenOf "vendor_models")),
  field "sig_models" (arrayC (countOf "number_s") (struct modelRelationItem)),
  field "vendor_models" (arrayC (countOf "number_v") (struct modelRelationItem))]

/-- config.py:602-604 `CompositionDataPage1`. -/
abbrev compositionDataPage1 : Con UInt8 := struct [field "element" (greedyRange (struct compositionDataPage1Element))]

/-- config.py:606-610 `Version`. -/
abbrev version : Con UInt8 :=
  struct [field "version_x" (uintLE 1), field "version_y" (uintLE 1), field "version_z" (uintLE 1)]

/-- config.py:612-619 `MeshProfileEntry`. -/
abbrev meshProfileEntry : List (Item UInt8) := [
  field "mesh_profile_identifier" (uintLE 2),
  field "version" version,
  field "num_element_offsets" (rebuild (uintLE 1) (lenOf "element_offset_list")),
  field "element_offset_list" (arrayC (countOf "num_element_offsets") (uintLE 1)),
  field "additional_data_len" (rebuild (uintLE 2) (lenOf "additional_data")),
  field "additional_data" (arrayC (countOf "additional_data_len") (uintLE 1))]

/-- config.py:621-623 `CompositionDataPage2`. -/
abbrev compositionDataPage2 : Con UInt8 := struct [field "record_list" (greedyRange (struct meshProfileEntry))]

/-! ### Retransmit -/

/-- config.py:625-629 `Retransmit`. -/
abbrev retransmitBits : Con UInt8 := bitwise 1 (struct [field "interval_steps" (ubits 5), field "count" (ubits 3)])

/-- config.py:640-641 `RetransmitAdapter._decode`. -/
def retransmitDecode (interval : Nat) (v : Val) : R Val :=
  match v with
  | .dict d => do
    let c ← dgetE d "count"
    let s ← dgetE d "interval_steps"
    match asInt s with
    | some s => .ok (.dict [("count", c), ("interval", .int ((s + 1) * interval))])
    | none => .error .type
  | _ => .error .type

/-- config.py:643-655 `RetransmitAdapter._encode`. -/
def retransmitEncode (interval : Nat) (u : Val) : R Val :=
  match u with
  | .dict d => do
    let c ← dgetE d "count"
    match asNum c with
    | none => .error .type
    | some cq =>
      if 7 < cq then .error .attribute
      else do
        let i ← dgetE d "interval"
        match asNum i with
        | none => .error .type
        | some q =>
          if ¬ (0 < q ∧ q ≤ (0x20 * interval : Nat)) ∨ ¬ (q / (interval : Rat)).den = 1 then .error .attribute
          else .ok (.dict [("count", c), ("interval_steps", .int (rhe (fsub (fdiv q interval) 1)))])
  | _ => .error .type

/-- config.py:633-655 `RetransmitAdapter(Retransmit, interval)`. -/
def retransmit (interval : Nat) : Con UInt8 :=
  adapter retransmitBits (fun _ => retransmitDecode interval) (fun _ => retransmitEncode interval)

/-- config.py:658 `NetworkRetransmit`. -/
abbrev networkRetransmit := retransmit 10
/-- config.py:660 `RelayRetransmit`. -/
abbrev relayRetransmit := networkRetransmit
/-- config.py:662 `PublishRetransmit`. -/
abbrev publishRetransmit := retransmit 50

/-! ### Key indices -/

/-- config.py:665-666 `DoubleKeyIndex(first, second)`. -/
abbrev doubleKeyIndex (first second : String) : Item UInt8 :=
  embeddedBitStruct "_" 3 true [field second (ubits 12), field first (ubits 12)]
/-- config.py:669-670 `SingleKeyIndex(name)`. -/
abbrev singleKeyIndex (name : String) : Item UInt8 :=
  embeddedBitStruct "_" 2 true [anon (padding false 4), field name (ubits 12)]
/-- config.py:673 `NetAndAppKeyIndex`. -/
abbrev netAndAppKeyIndex := doubleKeyIndex "net_key_index" "app_key_index"
/-- config.py:675 `AppKeyIndex`. -/
abbrev appKeyIndex := singleKeyIndex "app_key_index"
/-- config.py:677 `NetKeyIndex`. -/
abbrev netKeyIndex := singleKeyIndex "net_key_index"

/-- Insertion into a list sorted by integer value. -/
def insertVal (x : Int × Val) : List (Int × Val) → List (Int × Val)
  | [] => [x]
  | y :: ys => if x.1 ≤ y.1 then x :: y :: ys else y :: insertVal x ys

/-- `list.sort()` / `sorted()` on integer-like objects (a stable sort; the only sorts used, config.py:694, 702). -/
def sortVals : List (Int × Val) → List (Int × Val)
  | [] => []
  | x :: xs => insertVal x (sortVals xs)

/-- The integer values of the elements; comparing anything else raises `TypeError` in `sort()` or is rejected by
`BitsInteger` afterwards. -/
def withKeys : List Val → R (List (Int × Val))
  | [] => .ok []
  | v :: vs =>
    match asInt v with
    | some n => do
      let r ← withKeys vs
      .ok ((n, v) :: r)
    | none => .error .type

/-- config.py:703-707: the loop that pops the sorted list from the front. -/
def pairUp : List Val → List Val
  | a :: b :: r => .dict [("first", a), ("second", b)] :: pairUp r
  | [a] => [.dict [("last", a)]]
  | [] => []

/-- config.py:696-709 `KeyIndicesAdapter._encode` on the caller's list: the items to build, and what is left of the
caller's list (it is sorted and popped in place). -/
def keyIndicesEncode (obj : List Val) : R (List Val × List Val) := do
  let ks ← withKeys obj
  .ok (pairUp ((sortVals ks).map (·.2)), [])

/-- config.py:683-694 `KeyIndicesAdapter._decode`. -/
def flattenItems : List Val → R (List Val)
  | [] => .ok []
  | .dict d :: r => do
    let rs ← flattenItems r
    match dget d "last" with
    | some x => .ok (x :: rs)
    | none => do
      let a ← dgetE d "first"
      let b ← dgetE d "second"
      .ok (a :: b :: rs)
  | _ :: _ => .error .type

/-- config.py:715-728: the element of the inner `GreedyRange`. -/
abbrev keyIndicesItem : Con UInt8 := select [
  reversed 3 (bitwise 3 (struct [field "first" (ubits 12), field "second" (ubits 12)])),
  reversed 2 (bitwise 2 (struct [anon (padding false 4), field "last" (ubits 12)]))]

/-- config.py:713-730 `KeyIndices`. -/
def keyIndices : Con UInt8 where
  parse L ctx s := do
    let (v, rest) ← (greedyRange keyIndicesItem).parse L ctx s
    match v with
    | .list items => do
      let vs ← flattenItems items
      let ks ← withKeys vs
      .ok (.list ((sortVals ks).map (·.2)), rest)
    | _ => .error .type
  build L ctx u :=
    match u with
    | .list us => do
      let (items, _) ← keyIndicesEncode us
      let (b, _) ← (greedyRange keyIndicesItem).build L ctx (.list items)
      .ok (b, .list [])
    | _ => .error .attribute

/-! ### Publish period -/

/-- config.py:762-765 `PublishPeriod`. -/
abbrev publishPeriod : Con UInt8 := bitwise 1 (struct [
  field "step_resolution" (enumAdapter (ubits 2) E.PublishPeriodStepResolution),
  field "number_of_steps" (ubits 6)])

/-! ### Messages -/

/-- Empty payloads, e.g. config.py:767 `ConfigBeaconGet = Struct()`. -/
abbrev emptyStruct : Con UInt8 := struct []

/-- config.py:769-771 `ConfigBeaconSet`, `ConfigBeaconStatus`. -/
abbrev beaconSet : Con UInt8 := struct [field "beacon" secureNetworkBeacon]
/-- config.py:785-787 `ConfigCompositionDataGet`. -/
abbrev compositionDataGet : Con UInt8 := struct [field "page" (enumAdapter (uintLE 1) E.CompositionDataPage)]
/-- config.py:789-797 `ConfigCompositionData`, `ConfigCompositionDataStatus`. -/
abbrev compositionDataStatus : Con UInt8 :=
  switchStruct "page" (enumAdapter (uintLE 1) E.CompositionDataPage) E.CompositionDataPage "data"
    [(0, compositionDataPage0), (1, compositionDataPage1), (2, compositionDataPage2), (255, greedyBytes)]
/-- config.py:806-808 `ConfigDefaultTTLSet`, `ConfigDefaultTTLStatus`. -/
abbrev defaultTTLSet : Con UInt8 := struct [field "ttl" ttl]
/-- config.py:814-816 `ConfigGATTProxySet`, `ConfigGATTProxyStatus`. -/
abbrev gattProxySet : Con UInt8 := struct [field "GATT_proxy" gattProxy]
/-- config.py:822-825 `ConfigRelaySet`, `ConfigRelayStatus`. -/
abbrev relaySet : Con UInt8 := struct [field "relay" relay, field "retransmit" relayRetransmit]
/-- config.py:829-832 `ConfigModelPublicationGet`. -/
abbrev modelPublicationGet : Con UInt8 := struct [field "element_address" unicastAddress, field "model" modelId]
/-- config.py:837-843: the word holding reserved bits, credential flag and AppKey index. -/
abbrev publicationKey : Item UInt8 := embeddedBitStruct "_" 2 true [
  field "rfu" (ubits 3), field "credential_flag" publishFriendshipCredentialsFlag, field "app_key_index" (ubits 12)]
/-- config.py:834-848 `ConfigModelPublicationSet`. -/
abbrev modelPublicationSet : List (Item UInt8) := [
  field "element_address" unicastAddress, field "publish_address" notVirtualLabel, publicationKey, field "ttl" ttl,
  field "publish_period" publishPeriod, field "retransmit" publishRetransmit, field "model" modelId]
/-- config.py:850-853 `ConfigModelPublicationStatus`. -/
abbrev modelPublicationStatus : Con UInt8 := struct [field "status" statusCode, embedded modelPublicationSet]
/-- config.py:855-869 `ConfigModelPublicationVASet`. -/
abbrev modelPublicationVASet : Con UInt8 := struct [
  field "element_address" unicastAddress, field "publish_address" (bytesN 16), publicationKey, field "ttl" ttl,
  field "publish_period" publishPeriod, field "retransmit" publishRetransmit, field "model" modelId]
/-- config.py:871-875 `ConfigModelSubscriptionAdd` / `Delete` / `Overwrite`. -/
abbrev modelSubscriptionAdd : Con UInt8 := struct [
  field "element_address" unicastAddress, field "address" subscriptionAddress, field "model" modelId]
/-- config.py:880-884 `ConfigModelSubscriptionVAAdd` / `VADelete` / `VAOverwrite`. -/
abbrev modelSubscriptionVAAdd : Con UInt8 := struct [
  field "element_address" unicastAddress, field "label" (bytesN 16), field "model" modelId]
/-- config.py:889-894 `ConfigModelSubscriptionStatus`. -/
abbrev modelSubscriptionStatus : Con UInt8 := struct [
  field "status" statusCode, field "element_address" unicastAddress, field "address" statusSubscriptionAddress,
  field "model" modelId]
/-- config.py:896-899 `ConfigModelSubscriptionDeleteAll`. -/
abbrev modelSubscriptionDeleteAll : Con UInt8 := struct [field "element_address" unicastAddress, field "model" modelId]
/-- config.py:901-904 `ConfigSIGModelSubscriptionGet`; config.py:1000-1003 `ConfigSIGModelAppGet`. -/
abbrev sigModelGet : List (Item UInt8) := [field "element_address" unicastAddress, field "model" (struct sigModelId)]
/-- config.py:906-911 `ConfigSIGModelSubscriptionList`. -/
abbrev sigModelSubscriptionList : Con UInt8 := struct [
  field "status" statusCode, field "element_address" unicastAddress, field "model" (struct sigModelId),
  field "addresses" (greedyRange (uintLE 2))]
/-- config.py:913-916 `ConfigVendorModelSubscriptionGet`; config.py:1011-1014 `ConfigVendorModelAppGet`. -/
abbrev vendorModelGet : List (Item UInt8) := [field "element_address" unicastAddress, field "model" (struct vendorModelId)]
/-- config.py:918-923 `ConfigVendorModelSubscriptionList`. -/
abbrev vendorModelSubscriptionList : Con UInt8 := struct [
  field "status" statusCode, field "element_address" unicastAddress, field "model" (struct vendorModelId),
  field "addresses" (greedyRange (uintLE 2))]
/-- config.py:925-928 `ConfigNetKeyAdd`, `ConfigNetKeyUpdate`. -/
abbrev netKeyAdd : Con UInt8 := struct [netKeyIndex, field "net_key" (bytesN 16)]
/-- config.py:932-934 `ConfigNetKeyDelete`, config.py:963-965 `ConfigAppKeyGet`, config.py:973-975 `ConfigNodeIdentityGet`,
config.py:1034-1036 `ConfigKeyRefreshPhaseGet`. -/
abbrev netKeyOnly : List (Item UInt8) := [netKeyIndex]
/-- config.py:936-939 `ConfigNetKeyStatus`. -/
abbrev netKeyStatus : Con UInt8 := struct [field "status" statusCode, netKeyIndex]
/-- config.py:943-945 `ConfigNetKeyList`. -/
abbrev netKeyList : Con UInt8 := struct [field "net_key_indices" keyIndices]
/-- config.py:947-950 `ConfigAppKeyAdd`, `ConfigAppKeyUpdate`. -/
abbrev appKeyAdd : Con UInt8 := struct [netAndAppKeyIndex, field "app_key" (bytesN 16)]
/-- config.py:954-956 `ConfigAppKeyDelete`. -/
abbrev appKeyDelete : Con UInt8 := struct [netAndAppKeyIndex]
/-- config.py:958-961 `ConfigAppKeyStatus`. -/
abbrev appKeyStatus : Con UInt8 := struct [field "status" statusCode, netAndAppKeyIndex]
/-- config.py:967-971 `ConfigAppKeyList`. -/
abbrev appKeyList : Con UInt8 := struct [field "status" statusCode, netKeyIndex, field "app_key_indices" keyIndices]
/-- config.py:977-980 `ConfigNodeIdentitySet`. -/
abbrev nodeIdentitySet : List (Item UInt8) := [netKeyIndex, field "identity" nodeIdentity]
/-- config.py:982-985 `ConfigNodeIdentityStatus`. -/
abbrev nodeIdentityStatus : Con UInt8 := struct [field "status" statusCode, embedded nodeIdentitySet]
/-- config.py:987-991 `ConfigModelAppBind`, `ConfigModelAppUnbind`. -/
abbrev modelAppBind : List (Item UInt8) := [field "element_address" unicastAddress, appKeyIndex, field "model" modelId]
/-- config.py:995-998 `ConfigModelAppStatus`. -/
abbrev modelAppStatus : Con UInt8 := struct [field "status" statusCode, embedded modelAppBind]
/-- config.py:1005-1009 `ConfigSIGModelAppList` (the key really contains spaces). -/
abbrev sigModelAppList : Con UInt8 := struct [
  field "status" statusCode, embedded sigModelGet, field "app key indices" keyIndices]
/-- config.py:1016-1020 `ConfigVendorModelAppList`. -/
abbrev vendorModelAppList : Con UInt8 := struct [
  field "status" statusCode, embedded vendorModelGet, field "app_key_indices" keyIndices]
/-- config.py:1028-1030 `ConfigFriendSet`, `ConfigFriendStatus`. -/
abbrev friendSet : Con UInt8 := struct [field "friend" friend]
/-- config.py:1038-1041 `ConfigKeyRefreshPhaseSet`. -/
abbrev keyRefreshPhaseSet : Con UInt8 := struct [
  embedded netKeyOnly, field "transition" (enumAdapter (uintLE 1) E.KeyRefreshTransition)]
/-- config.py:1043-1047 `ConfigKeyRefreshPhaseStatus`. -/
abbrev keyRefreshPhaseStatus : Con UInt8 := struct [
  field "status" statusCode, netKeyIndex, field "phase" (enumAdapter (uintLE 1) E.KeyRefreshPhase)]

section
variable [Platform]

/-- config.py:1055-1062 `ConfigHeartbeatPublicationSet`. -/
abbrev heartbeatPublicationSet : List (Item UInt8) := [
  field "destination" unicastUnassignedGroupAddress, field "count" (logAdapter 0x10 true), field "period" (logAdapter 0x10),
  field "ttl" ttl, field "features" (bitList 2), netKeyIndex]
/-- config.py:1064-1067 `ConfigHeartbeatPublicationStatus`. -/
abbrev heartbeatPublicationStatus : Con UInt8 := struct [field "status" statusCode, embedded heartbeatPublicationSet]
/-- config.py:1071-1075 `ConfigHeartbeatSubscriptionSet`. -/
abbrev heartbeatSubscriptionSet : List (Item UInt8) := [
  field "source" unicastUnassignedAddress, field "destination" unicastUnassignedGroupAddress,
  field "period_log" (logAdapter 0x11)]
/-- config.py:1077-1083 `ConfigHeartbeatSubscriptionStatus`. -/
abbrev heartbeatSubscriptionStatus : Con UInt8 := struct [
  field "status" statusCode, embedded heartbeatSubscriptionSet, field "count" (logAdapter 0x11 true),
  field "min_hops" (rangeValidator (uintLE 1) none (some 0x7F)), field "max_hops" (rangeValidator (uintLE 1) none (some 0x7F))]
end

/-- config.py:1085-1087 `ConfigLowPowerNodePollTimeoutGet`. -/
abbrev lpnPollTimeoutGet : List (Item UInt8) := [field "lpn_address" (uintLE 2)]
/-- config.py:1089-1092 `ConfigLowPowerNodePollTimeoutStatus`. -/
abbrev lpnPollTimeoutStatus : Con UInt8 := struct [embedded lpnPollTimeoutGet, field "poll_timeout" (bytesIntLE 3)]

end Config
end BM
