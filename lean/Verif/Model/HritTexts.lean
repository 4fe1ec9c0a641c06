import Verif.Model.HritHeader

/-
The texts that msat/hrit prints for numbers: msat/hrit/MSG_spacecraft.cpp, MSG_channel.cpp, MSG_filetype.cpp, MSG_compression.cpp,
MSG_data_format.cpp and MSG_quality.cpp.
-/
namespace Msat.HritTexts

/-- msat/hrit/MSG_spacecraft.cpp:32-138 `MSG_spacecraft_name`; the numbers are those of msat/hrit/MSG_spacecraft.h:35-70. -/
def spacecraftName : Nat → String
  | 0 => "Non Spacecraft"
  | 11 => "METOP1"
  | 12 => "METOP2"
  | 13 => "METOP3"
  | 16 => "METEOSAT3"
  | 19 => "METEOSAT4"
  | 20 => "METEOSAT5"
  | 21 => "METEOSAT6"
  | 150 => "MTP1"
  | 151 => "MTP2"
  | 321 => "MSG1"
  | 322 => "MSG2"
  | 323 => "MSG3"
  | 324 => "MSG4"
  | 17012 => "NOAA12"
  | 17013 => "NOAA13"
  | 17014 => "NOAA14"
  | 17015 => "NOAA15"
  | 18007 => "GOES7"
  | 18008 => "GOES8"
  | 18009 => "GOES9"
  | 18010 => "GOES10"
  | 18011 => "GOES11"
  | 18012 => "GOES12"
  | 19001 => "GOMS1"
  | 19002 => "GOMS2"
  | 19003 => "GOMS3"
  | 20004 => "GMS4"
  | 20005 => "GMS5"
  | 20006 => "GMS6"
  | 21001 => "MTSAT1"
  | 21002 => "MTSAT2"
  | _ => "Unknown"

/-- msat/hrit/MSG_channel.cpp:38-89: SEVIRI; the numbers of the channels are those of msat/hrit/MSG_channel.h:37-52. -/
def seviriChannel : Nat → String
  | 0 => "Image data, no" ++ " channel"
  | 1 => "MSG Seviri 1.5 " ++ "Visible 0.6" ++ " channel"
  | 2 => "MSG Seviri 1.5 " ++ "Visible 0.8" ++ " channel"
  | 3 => "MSG Seviri 1.5 " ++ "Infrared 1.6" ++ " channel"
  | 4 => "MSG Seviri 1.5 " ++ "Infrared 3.9" ++ " channel"
  | 5 => "MSG Seviri 1.5 " ++ "Water Vapour 6.2" ++ " channel"
  | 6 => "MSG Seviri 1.5 " ++ "Water Vapour 7.3" ++ " channel"
  | 7 => "MSG Seviri 1.5 " ++ "Infrared 8.7" ++ " channel"
  | 8 => "MSG Seviri 1.5 " ++ "Infrared 9.7" ++ " channel"
  | 9 => "MSG Seviri 1.5 " ++ "Infrared 10.8" ++ " channel"
  | 10 => "MSG Seviri 1.5 " ++ "Infrared 12.0" ++ " channel"
  | 11 => "MSG Seviri 1.5 " ++ "Infrared 13.4" ++ " channel"
  | 12 => "MSG Seviri 1.5 " ++ "HRV" ++ " channel"
  | _ => "MSG Seviri 1.5 " ++ "unknown" ++ " channel"

/-- msat/hrit/MSG_channel.cpp:90-119: GOES -/
def goesChannel : Nat → String
  | 1 => "GOES " ++ "Visible" ++ " channel"
  | 2 => "GOES " ++ "Infrared 3.9" ++ " channel"
  | 3 => "GOES " ++ "Water Vapour 6.8" ++ " channel"
  | 4 => "GOES " ++ "Infrared 10.7" ++ " channel"
  | 5 => "GOES " ++ "Infrared 12.0" ++ " channel"
  | _ => "GOES " ++ "unknown" ++ " channel"

/-- msat/hrit/MSG_channel.cpp:120-148: GMS and MTSAT -/
def gmsChannel : Nat → String
  | 1 => "GMS/MTSAT " ++ "Visible" ++ " channel"
  | 2 => "GMS/MTSAT " ++ "Infrared 3.8" ++ " channel"
  | 3 => "GMS/MTSAT " ++ "Water Vapour 6.7" ++ " channel"
  | 4 => "GMS/MTSAT " ++ "Infrared 10.8" ++ " channel"
  | 5 => "GMS/MTSAT " ++ "Infrared 12.0" ++ " channel"
  | _ => "GMS/MTSAT " ++ "unknown" ++ " channel"

/-- msat/hrit/MSG_channel.cpp:149-169: GOMS -/
def gomsChannel : Nat → String
  | 1 => "GOMS " ++ "Visible" ++ " channel"
  | 2 => "GOMS " ++ "Water Vapour" ++ " channel"
  | 3 => "GOMS " ++ "Infrared" ++ " channel"
  | _ => "GOMS " ++ "unknown" ++ " channel"

/-- msat/hrit/MSG_channel.cpp:170-203: Metop and NOAA -/
def polarChannel : Nat → String
  | 1 => "Polar orbiter single or composite " ++ "Visible 0.6" ++ " channel"
  | 2 => "Polar orbiter single or composite " ++ "Visible 0.8" ++ " channel"
  | 3 => "Polar orbiter single or composite " ++ "Near Infrared 1.6" ++ " channel"
  | 4 => "Polar orbiter single or composite " ++ "Infrared 3.8" ++ " channel"
  | 5 => "Polar orbiter single or composite " ++ "Infrared 10.8" ++ " channel"
  | 6 => "Polar orbiter single or composite " ++ "Infrared 12.0" ++ " channel"
  | _ => "Polar orbiter single or composite " ++ "unknown" ++ " channel"

/-- msat/hrit/MSG_channel.cpp:32-209 `MSG_channel_name` -/
def channelName (spacecraft channel : Nat) : String :=
  match spacecraft with
  | 321 | 322 | 323 | 324 => seviriChannel channel
  | 18007 | 18008 | 18009 | 18010 | 18011 | 18012 => goesChannel channel
  | 20004 | 20005 | 20006 | 21001 | 21002 => gmsChannel channel
  | 19001 | 19002 | 19003 => gomsChannel channel
  | 11 | 12 | 13 | 17012 | 17013 | 17014 | 17015 => polarChannel channel
  | _ => "No channel information"

/-- msat/hrit/MSG_filetype.cpp:33-68 `MSG_filetype`, with the document of msat/hrit/MSG_hrit_specdoc.h:33-34 -/
def filetype : Nat → String
  | 0 => "MSG Image Data File"
  | 1 => "MSG GTS Message File"
  | 2 => "MSG Alphanumeric Text File"
  | 3 => "MSG Encryption Key Message File"
  | 128 => "MSG Repeat Cycle Prologue"
  | 129 => "MSG Repeat Cycle Epilogue"
  | 130 => "MSG DCP Message (unprocessed)"
  | 144 => "MSG Binary File Message"
  | _ => "MSG Mission Unknown file typecode as of " ++ "CGMS-03 LRIT-HRIT Global Specification, V. 2.6 19 Aug 1999"

/-- msat/hrit/MSG_compression.cpp:32-51 `MSG_image_compression` -/
def compression : Nat → String
  | 0 => "MSG No Compression"
  | 1 => "MSG Lossless Compression"
  | 2 => "MSG Lossy Compression"
  | _ => "MSG Compression flag unknown."

/-- msat/hrit/MSG_data_format.cpp:32-54 `MSG_data_format` -/
def dataFormat : Nat → String
  | 0 => "MSG unformatted data field"
  | 1 => "MSG JPEG formatted data field"
  | 2 => "MSG T.4 coded data field"
  | 3 => "MSG Wavelet coded data field"
  | _ => "MSG undefined format for data field"

/-- msat/hrit/MSG_quality.cpp:32-57 `MSG_segment_validity` -/
def validity : Nat → String
  | 0 => "Not derived"
  | 1 => "Nominal"
  | 2 => "Based on missing data"
  | 3 => "Based on corrupted data"
  | 4 => "Based on missing or interpolated data"
  | _ => "Validity not defined"

/-- msat/hrit/MSG_quality.cpp:59-85 `MSG_segment_radiometric_quality` -/
def radiometricQuality : Nat → String
  | 0 => "Not derived"
  | 1 => "Nominal"
  | 2 => "Usable"
  | 3 => "Suspect"
  | 4 => "Do not use"
  | _ => "Radiometric quality undefined"

/-- msat/hrit/MSG_quality.cpp:87-113 `MSG_segment_geometric_quality` -/
def geometricQuality : Nat → String
  | 0 => "Not derived"
  | 1 => "Nominal"
  | 2 => "Usable"
  | 3 => "Suspect"
  | 4 => "Do not use"
  | _ => "Geometric quality undefined"

end Msat.HritTexts
