import Verif.Model.Prologue

/-
msat/hrit/MSG_data.cpp (prologue and epilogue dispatch), msat/hrit/MSG_data_key.cpp,
msat/msg-native/MSG_native_header.cpp and MSG_native_trailer.cpp.
-/
namespace Msat.Layout

/-- msat/hrit/MSG_data.cpp:191-209: the MSG prologue data field, one structure after the other
(IMPF configuration is not read here). -/
def prologueData : ReadFrom := body [
    call [.f "sat_status"] satelliteStatus,
    call [.f "image_acquisition"] imageAcquisition,
    call [.f "celestial_events"] celestialEvents,
    call [.f "image_description"] imageDescription,
    call [.f "radiometric_proc"] radiometricProc,
    call [.f "geometric_proc"] geometricProc]

/-- msat/hrit/MSG_data.cpp:252-268: the MSG epilogue data field: `dpnt = dbuff+1`, then one structure
after the other. -/
def epilogueData : ReadFrom := body [
    adv 1,
    call [.f "product_stats"] imageProdStats,
    call [.f "navig_result"] navigExtrResult,
    call [.f "radiometric_qlty"] radiometricQuality,
    call [.f "geometric_qlty"] geometricQuality,
    call [.f "timelin_comple"] timelinComple]

/-- msat/hrit/MSG_data_key.cpp:60-66: one key message at `pnt`, in a loop that advances `pnt` by
`MSG_KEY_MESSAGE_LEN` (197). -/
def keyMessage : ReadFrom := bodyRet [
    get [.f "User_Station_number"] .u2 0,
    get [.f "Key_Number"] .u1 1,
    get [.f "Public_key"] (.mem 192 192) 2,
    get [.f "Public_Key_CRC"] .u2 195] 197

end Msat.Layout
