import Verif.SpecMesh
import Verif.SpecAccess
import Verif.Enums
/-!
# Wire formats of the configuration messages

One entry per opcode: the opcode number, the key under which the decoded payload is reported, and the format of the payload.
The layouts are those of the Mesh Profile (section 4.3.2), with the field names of this package.
-/
namespace BM

namespace Spec
open F

/-- A one-byte enumeration. -/
abbrev enum8 (E : EnumDef) : Fmt UInt8 := enumOf (uint 1) E
/-- A two-bit enumeration. -/
abbrev enumBits (n : Nat) (E : EnumDef) : Fmt Bool := enumOf (bitsU n) E

abbrev status : RI UInt8 := fld "status" (enum8 E.StatusCode)
abbrev element : RI UInt8 := fld "element_address" (address IsUnicast)
/-- A 12-bit key index in two bytes, four reserved bits on top. -/
abbrev keyIndex (k : String) : RI UInt8 := bitGroup "_" 2 true [zeros false 4, fld k (bitsU 12)]
/-- Two 12-bit key indices in three bytes: NetKey index in the low 12 bits of the little-endian word. -/
abbrev netAppKey : RI UInt8 := bitGroup "_" 3 true [fld "app_key_index" (bitsU 12), fld "net_key_index" (bitsU 12)]
abbrev sigModel : List (RI UInt8) := [fld "model_id" (uint 2)]
abbrev vendorModel : List (RI UInt8) := [fld "vendor_id" (uint 2), fld "model_id" (uint 2)]
/-- A model identifier: four bytes for a vendor model, two for a SIG model. -/
abbrev model : RI UInt8 := fld "model" (orElse (named "vendor" (record vendorModel)) (named "sig" (record sigModel)))
abbrev ttl : RI UInt8 := fld "ttl" sevenBit
/-- Reserved bits, friendship credential flag and AppKey index in two bytes. -/
abbrev publishKey : RI UInt8 := bitGroup "_" 2 true
  [fld "rfu" (bitsU 3), fld "credential_flag" (enumOf bit E.PublishFriendshipCredentialsFlag), fld "app_key_index" (bitsU 12)]
abbrev publishPeriod : RI UInt8 := fld "publish_period" (packed 1 (record
  [fld "step_resolution" (enumBits 2 E.PublishPeriodStepResolution), fld "number_of_steps" (bitsU 6)]))
abbrev modelSubscription (adr : RI UInt8) : Fmt UInt8 := record [element, adr, model]
abbrev subscriptionAdr : RI UInt8 :=
  fld "address" (address fun a => ¬ (IsUnassigned a ∨ IsUnicast a ∨ IsVirtual a ∨ IsAllNodes a))
abbrev label : RI UInt8 := fld "label" (bytes 16)
abbrev publication (adr : RI UInt8) : List (RI UInt8) :=
  [element, adr, publishKey, ttl, publishPeriod, fld "retransmit" (retransmit 50), model]
abbrev publishAdr : RI UInt8 := fld "publish_address" (address fun a => ¬ IsVirtual a)
abbrev onlyElementSig : List (RI UInt8) := [element, fld "model" (record sigModel)]
abbrev onlyElementVendor : List (RI UInt8) := [element, fld "model" (record vendorModel)]

/-- Configuration messages whose decoding and encoding are mutually inverse on bytes. -/
def configLossless [Platform] : List MsgSpec := [
  msg 0x00 "config_appkey_add" (record [netAppKey, fld "app_key" (bytes 16)]) |>.sized 19,
  msg 0x01 "config_appkey_update" (record [netAppKey, fld "app_key" (bytes 16)]) |>.sized 19,
  msg 0x8000 "config_appkey_delete" (record [netAppKey]) |>.sized 3,
  msg 0x8003 "config_appkey_status" (record [status, netAppKey]) |>.sized 4,
  msg 0x8009 "config_beacon_get" (record []) |>.sized 0,
  msg 0x800A "config_beacon_set" (record [fld "beacon" (enum8 E.SecureNetworkBeacon)]) |>.sized 1,
  msg 0x800B "config_beacon_status" (record [fld "beacon" (enum8 E.SecureNetworkBeacon)]) |>.sized 1,
  msg 0x8008 "config_composition_data_get" (record [fld "page" (enum8 E.CompositionDataPage)]) |>.sized 1,
  msg 0x800C "config_default_ttl_get" (record []) |>.sized 0,
  msg 0x800D "config_default_ttl_set" (record [ttl]) |>.sized 1,
  msg 0x800E "config_default_ttl_status" (record [ttl]) |>.sized 1,
  msg 0x800F "config_friend_get" (record []) |>.sized 0,
  msg 0x8010 "config_friend_set" (record [fld "friend" (enum8 E.Friend)]) |>.sized 1,
  msg 0x8011 "config_friend_status" (record [fld "friend" (enum8 E.Friend)]) |>.sized 1,
  msg 0x8012 "config_gatt_proxy_get" (record []) |>.sized 0,
  msg 0x8013 "config_gatt_proxy_set" (record [fld "GATT_proxy" (enum8 E.GATTProxy)]) |>.sized 1,
  msg 0x8014 "config_gatt_proxy_status" (record [fld "GATT_proxy" (enum8 E.GATTProxy)]) |>.sized 1,
  msg 0x8038 "config_hearbeat_publication_get" (record []) |>.sized 0,
  msg 0x803A "config_hearbeat_subscription_get" (record []) |>.sized 0,
  msg 0x803B "config_hearbeat_subscription_set" (record [
    fld "source" (address fun a => IsUnicast a ∨ IsUnassigned a),
    fld "destination" (address fun a => IsUnicast a ∨ IsUnassigned a ∨ IsGroup a), fld "period_log" (log2 0x11 false)]) |>.sized 5,
  msg 0x803C "config_hearbeat_subscription_status" (record [status, embed [
    fld "source" (address fun a => IsUnicast a ∨ IsUnassigned a),
    fld "destination" (address fun a => IsUnicast a ∨ IsUnassigned a ∨ IsGroup a), fld "period_log" (log2 0x11 false)],
    fld "count" (log2 0x11 true), fld "min_hops" sevenBit, fld "max_hops" sevenBit]) |>.sized 9,
  msg 0x802D "config_low_power_node_poll_timeout_get" (record [fld "lpn_address" (uint 2)]) |>.sized 2,
  msg 0x802E "config_low_power_node_poll_timeout_status" (record [embed [fld "lpn_address" (uint 2)], fld "poll_timeout" (uint 3)]) |>.sized 5,
  msg 0x8018 "config_model_publication_get" (record [element, model]),
  msg 0x03 "config_model_publication_set" (record (publication publishAdr)),
  msg 0x8019 "config_model_publication_status" (record [status, embed (publication publishAdr)]),
  msg 0x801A "config_model_publication_virtual_address_set" (record (publication (fld "publish_address" (bytes 16)))),
  msg 0x801B "config_model_subscription_add" (modelSubscription subscriptionAdr),
  msg 0x801C "config_model_subscription_delete" (modelSubscription subscriptionAdr),
  msg 0x801D "config_model_subscription_delete_all" (record [element, model]),
  msg 0x801E "config_model_subscription_overwrite" (modelSubscription subscriptionAdr),
  msg 0x801F "config_model_subscription_status" (record [status, element,
    fld "address" (address fun a => ¬ (IsUnicast a ∨ IsAllNodes a)), model]),
  msg 0x8020 "config_model_subscription_virtual_address_add" (modelSubscription label),
  msg 0x8021 "config_model_subscription_virtual_address_delete" (modelSubscription label),
  msg 0x8022 "config_model_subscription_virtual_address_overwrite" (modelSubscription label),
  msg 0x8042 "config_netkey_get" (record []) |>.sized 0,
  msg 0x8023 "config_network_transmit_get" (record []) |>.sized 0,
  msg 0x8024 "config_network_transmit_set" (retransmit 10) |>.sized 1,
  msg 0x8025 "config_network_transmit_status" (retransmit 10) |>.sized 1,
  msg 0x8049 "config_node_reset" (record []) |>.sized 0,
  msg 0x804A "config_node_reset_status" (record []) |>.sized 0,
  msg 0x8026 "config_relay_get" (record []) |>.sized 0,
  msg 0x8027 "config_relay_set" (record [fld "relay" (enum8 E.Relay), fld "retransmit" (retransmit 10)]) |>.sized 2,
  msg 0x8028 "config_relay_status" (record [fld "relay" (enum8 E.Relay), fld "retransmit" (retransmit 10)]) |>.sized 2,
  msg 0x804B "config_sig_model_app_get" (record onlyElementSig) |>.sized 4,
  msg 0x8029 "config_sig_model_subscription_get" (record onlyElementSig) |>.sized 4,
  msg 0x802A "config_sig_model_subscription_list" (record [status, element, fld "model" (record sigModel),
    fld "addresses" (listOf (uint 2))]),
  msg 0x804D "config_vendor_model_app_get" (record onlyElementVendor) |>.sized 6,
  msg 0x802B "config_vendor_model_subscription_get" (record onlyElementVendor) |>.sized 6,
  msg 0x802C "config_vendor_model_subscription_list" (record [status, element, fld "model" (record vendorModel),
    fld "addresses" (listOf (uint 2))])]

/-- Configuration messages with reserved bits or unordered lists: a received message re-encodes to an equivalent one. -/
def configStable [Platform] : List MsgSpec := [
  msg 0x8001 "config_appkey_get" (record [keyIndex "net_key_index"]) |>.sized 2,
  msg 0x8002 "config_appkey_list" (record [status, keyIndex "net_key_index", fld "app_key_indices" keyList]),
  msg 0x8039 "config_hearbeat_publication_set" (record [
    fld "destination" (address fun a => IsUnicast a ∨ IsUnassigned a ∨ IsGroup a), fld "count" (log2 0x10 true),
    fld "period" (log2 0x10 false), ttl, fld "features" (bitset 2), keyIndex "net_key_index"]) |>.sized 9,
  msg 0x06 "config_hearbeat_publication_status" (record [status, embed [
    fld "destination" (address fun a => IsUnicast a ∨ IsUnassigned a ∨ IsGroup a), fld "count" (log2 0x10 true),
    fld "period" (log2 0x10 false), ttl, fld "features" (bitset 2), keyIndex "net_key_index"]]) |>.sized 10,
  msg 0x8015 "config_key_refresh_phase_get" (record [keyIndex "net_key_index"]) |>.sized 2,
  msg 0x8016 "config_key_refresh_phase_set" (record [embed [keyIndex "net_key_index"],
    fld "transition" (enum8 E.KeyRefreshTransition)]) |>.sized 3,
  msg 0x8017 "config_key_refresh_phase_status" (record [status, keyIndex "net_key_index",
    fld "phase" (enum8 E.KeyRefreshPhase)]) |>.sized 4,
  msg 0x803D "config_model_app_bind" (record [element, keyIndex "app_key_index", model]),
  msg 0x803E "config_model_app_status" (record [status, embed [element, keyIndex "app_key_index", model]]),
  msg 0x803F "config_model_app_unbind" (record [element, keyIndex "app_key_index", model]),
  msg 0x8040 "config_netkey_add" (record [keyIndex "net_key_index", fld "net_key" (bytes 16)]) |>.sized 18,
  msg 0x8041 "config_netkey_delete" (record [keyIndex "net_key_index"]) |>.sized 2,
  msg 0x8043 "config_netkey_list" (record [fld "net_key_indices" keyList]),
  msg 0x8044 "config_netkey_status" (record [status, keyIndex "net_key_index"]) |>.sized 3,
  msg 0x8045 "config_netkey_update" (record [keyIndex "net_key_index", fld "net_key" (bytes 16)]) |>.sized 18,
  msg 0x8046 "config_node_identity_get" (record [keyIndex "net_key_index"]) |>.sized 2,
  msg 0x8047 "config_node_identity_set" (record [keyIndex "net_key_index", fld "identity" (enum8 E.NodeIdentity)]) |>.sized 3,
  msg 0x8048 "config_node_identity_status" (record [status, embed [keyIndex "net_key_index", fld "identity" (enum8 E.NodeIdentity)]]) |>.sized 4,
  msg 0x804C "config_sig_model_app_list" (record [status, embed onlyElementSig, fld "app key indices" keyList]),
  msg 0x804E "config_vendor_model_app_list" (record [status, embed onlyElementVendor, fld "app_key_indices" keyList])]

end Spec
end BM
