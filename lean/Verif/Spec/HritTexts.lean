/-
Numbers in the headers of xRIT files and what they mean, after the enumerations of msat/hrit/MSG_spacecraft.h, MSG_channel.h,
MSG_filetype.h, MSG_compression.h, MSG_data_format.h and MSG_quality.h.
-/
namespace Msat.HritTextsSpec

/-- Satellites. -/
def spacecrafts : List (Nat × String) :=
  [(11, "METOP1"), (12, "METOP2"), (13, "METOP3"), (16, "METEOSAT3"), (19, "METEOSAT4"), (20, "METEOSAT5"), (21, "METEOSAT6"),
   (150, "MTP1"), (151, "MTP2"), (321, "MSG1"), (322, "MSG2"), (323, "MSG3"), (324, "MSG4"), (17012, "NOAA12"), (17013, "NOAA13"),
   (17014, "NOAA14"), (17015, "NOAA15"), (18007, "GOES7"), (18008, "GOES8"), (18009, "GOES9"), (18010, "GOES10"),
   (18011, "GOES11"), (18012, "GOES12"), (19001, "GOMS1"), (19002, "GOMS2"), (19003, "GOMS3"), (20004, "GMS4"), (20005, "GMS5"),
   (20006, "GMS6"), (21001, "MTSAT1"), (21002, "MTSAT2")]

/-- The imagers: satellites, and for every channel its number and its wavelength as it is written. -/
structure Imager where
  satellites : List Nat
  channels : List (Nat × String)

def seviri : Imager := ⟨[321, 322, 323, 324], [(1, "0.6"), (2, "0.8"), (3, "1.6"), (4, "3.9"), (5, "6.2"), (6, "7.3"), (7, "8.7"),
  (8, "9.7"), (9, "10.8"), (10, "12.0"), (11, "13.4")]⟩
def goes : Imager := ⟨[18007, 18008, 18009, 18010, 18011, 18012], [(2, "3.9"), (3, "6.8"), (4, "10.7"), (5, "12.0")]⟩
def gms : Imager := ⟨[20004, 20005, 20006, 21001, 21002], [(2, "3.8"), (3, "6.7"), (4, "10.8"), (5, "12.0")]⟩
def polar : Imager := ⟨[11, 12, 13, 17012, 17013, 17014, 17015], [(1, "0.6"), (2, "0.8"), (3, "1.6"), (4, "3.8"), (5, "10.8"),
  (6, "12.0")]⟩

/-- Number of channels that have a name, by satellite. -/
def channelCount (satellite : Nat) : Nat :=
  if satellite ∈ seviri.satellites then 12
  else if satellite ∈ goes.satellites then 5
  else if satellite ∈ gms.satellites then 5
  else if satellite ∈ polar.satellites then 6
  else if satellite ∈ [19001, 19002, 19003] then 3
  else 0

/-- How the samples of an image are packed: a word of the text. -/
def compressions : List (Nat × String) := [(0, "No"), (1, "Lossless"), (2, "Lossy")]

/-- How the data field is coded: a part of the text. -/
def dataFormats : List (Nat × String) := [(0, "unformatted"), (1, "JPEG formatted"), (2, "T.4 coded"), (3, "Wavelet coded")]

/-- What a file holds. -/
def filetypes : List (Nat × String) :=
  [(0, "Image Data File"), (1, "GTS Message File"), (2, "Alphanumeric Text File"), (3, "Encryption Key Message File"),
   (128, "Repeat Cycle Prologue"), (129, "Repeat Cycle Epilogue"), (130, "DCP Message (unprocessed)"), (144, "Binary File Message")]

/-- How the pixels of a line have been made. -/
def validities : List (Nat × String) :=
  [(0, "Not derived"), (1, "Nominal"), (2, "Based on missing data"), (3, "Based on corrupted data"),
   (4, "Based on replaced or interpolated data")]

/-- How good they are. -/
def qualities : List (Nat × String) :=
  [(0, "Not derived"), (1, "Nominal"), (2, "Usable"), (3, "Suspect"), (4, "Do not use")]

/-- A code is printed as a text that no other known code is printed as, and codes that are not known as one that no known code
is printed as. -/
def Tells (text : Nat → String) (known : List Nat) (unknown : String) : Prop :=
  (∀ a ∈ known, text a ≠ unknown ∧ ∀ b, text b = text a → b = a) ∧ ∀ a, a ∉ known → text a = unknown

end Msat.HritTextsSpec
