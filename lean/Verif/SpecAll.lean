import Verif.SpecGenerics
import Verif.SpecSensor
import Verif.SpecSilvair
import Verif.SpecTime
import Verif.SpecPages
/-!
# All specified messages
-/
namespace BM.Spec

/-- Message types whose decoding and encoding are mutually inverse on bytes. -/
def lossless [Platform] : List MsgSpec :=
  configLossless ++ (compositionLossless ++ (onoffLossless ++ (levelLossless ++ (batteryLossless ++ (lightnessLossless ++ (lightnessSetupLossless ++
  (ctlLossless ++ (ctlSetupLossless ++ (sceneLossless ++ (healthLossless ++
  (propertyLossless ++ (sensorLossless ++ (sensorSetupLossless ++
  (debugLossless ++ (gatewayLossless ++ (ndsLossless ++ (ndsSetupLossless ++ (lecLossless ++ (elLossless ++ (timeLossless ++ (eltLossless ++ rruleLossless)))))))))))))))))))))
/-- Message types of which every received message re-encodes to an equivalent one. -/
def stable [Platform] : List MsgSpec := lossless ++ (configStable ++ (propertyStable ++ (sensorSetupStable ++
  (debugStable ++ (timeStable ++ (lecStable ++ (eltStable ++ elStable)))))))
/-- Message types of which some received messages do not re-encode to an equivalent one (see DESIGN.md). -/
def plainOnly [Platform] : List MsgSpec := onoffPlain ++ (levelPlain ++ (lightnessPlain ++ (ctlPlain ++ (scenePlain ++ (sensorPlain ++
  (debugPlain ++ (gatewayPlain ++ (timePlain ++ (eltPlain ++ (debugV2Plain ++ rrulePlain))))))))))
/-- All message types with a specified wire format. -/
def messages [Platform] : List MsgSpec := stable ++ plainOnly

end BM.Spec
