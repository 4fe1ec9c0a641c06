{"id": "C01", "title": "Big-endian field decoding is exact", "statement": "Every fixed-width integer read from a satellite product returns the value whose big-endian encoding is the bytes at that position: for every value v of the width (8, 16, 32, 64 bit, signed or unsigned), decoding the big-endian bytes of v returns v, and decoding any bytes then re-encoding returns the same bytes.", "quantifier": "all values of each width and all byte strings of that width", "why_tests_cant": "2^32 and 2^64 encodings cannot be enumerated; a sign or byte-order slip shows only on particular byte patterns.", "anchors": ["msat/hrit/MSG_machine.cpp: get_i1,get_i2,get_i4,get_i8,get_ui1,get_ui2,get_ui4,get_ui8", "msat/omtp-ids/ByteSex.cc: read2,read4,write2,write4", "msat/openmtp/OpenMTP_machine.cpp: int2_from_bigendian_buff,int4_from_bigendian_buff"]}
{"id": "C02", "title": "CDS timestamps denote the right instant", "statement": "A 6-byte CDS short time (days since 1958-01-01, milliseconds of day) is converted to the Unix time of exactly that instant; conversion is strictly monotone on valid times, and two different valid times to the second give different Unix times.", "quantifier": "all day numbers and all millisecond counts", "why_tests_cant": "65536 days times 86.4 million milliseconds; the epoch offset error is a property of every value, not of the samples.", "anchors": ["msat/hrit/MSG_time_cds.cpp: MSG_time_cds_short::read_from"]}
{"id": "C03", "title": "HRIT header parsing always ends in a result or a reported error", "statement": "For any byte string offered as an HRIT file, reading the header either returns a header or throws; it never loops forever, never reads outside the header buffer, and never aborts the process.", "quantifier": "all byte strings", "why_tests_cant": "Hostile or truncated inputs form an unbounded set; non-termination cannot be observed by a test.", "anchors": ["msat/hrit/MSG_header.cpp: MSG_header::read_from"]}
{"id": "C04", "title": "HRIT header records are all recovered", "statement": "For any primary header and any sequence of well-formed secondary header records whose total length is the announced one, reading the header succeeds and yields each record with exactly the field values that were encoded, the last one of each type winning.", "quantifier": "all sequences of header records with arbitrary field values", "why_tests_cant": "The records come in any order, number and value; tests see a few archived files.", "anchors": ["msat/hrit/MSG_header.cpp: read_from", "msat/hrit/MSG_header_image_struct.cpp", "msat/hrit/MSG_header_image_navig.cpp", "msat/hrit/MSG_header_segment_id.cpp", "msat/hrit/MSG_header_timestamp.cpp", "msat/hrit/MSG_header_key.cpp", "msat/hrit/MSG_header_annotation.cpp"]}
{"id": "C05", "title": "Prologue and epilogue structures are read field by field without gap or overlap", "statement": "For each fixed-size structure of the HRIT prologue and epilogue, the byte ranges decoded into fields are disjoint, cover exactly the documented length, and the reader advances by exactly the documented length, so that decoding an encoded structure returns every field.", "quantifier": "all field values of all structures", "why_tests_cant": "Structures have up to 370000 bytes; an overlap or off-by-n corrupts only some fields for some values.", "anchors": ["msat/hrit/MSG_data_SatelliteStatus.cpp", "msat/hrit/MSG_data_ImageAcquisition.cpp", "msat/hrit/MSG_data_CelestialEvents.cpp", "msat/hrit/MSG_data_ImageDescription.cpp", "msat/hrit/MSG_data_RadiometricProc.cpp", "msat/hrit/MSG_data_GeometricProc.cpp", "msat/hrit/MSG_data_IMPFConfiguration.cpp", "msat/hrit/MSG_data_ImageProdStats.cpp", "msat/hrit/MSG_data_NavigExtrResult.cpp", "msat/hrit/MSG_data_RadiometricQuality.cpp", "msat/hrit/MSG_data_GeometricQuality.cpp", "msat/hrit/MSG_data_TimelinComple.cpp"]}
{"id": "C06", "title": "xRIT product names round-trip", "statement": "Parsing the short name composed from a product identification (directory, resolution, satellite, channel, time) returns the same identification; parsing a long segment file name recovers the components it was composed of, without their padding; every other string is either rejected with an exception or is of one of the two forms. Two products that are shown as the same text are the same, and a product is searched for only if none of its parts is missing.", "quantifier": "all component strings free of the separators", "why_tests_cant": "Component strings are unbounded; corner cases are in padding and separators.", "anchors": ["msat/xrit/fileaccess.cpp: FileAccess::parse,toString,underscoreit,deunderscore"]}
{"id": "C07", "title": "Prologue, epilogue and segment searches select exactly the product's files", "statement": "In any directory, the search patterns for the prologue, the epilogue and the segments of a product match exactly the file names composed from that product's components, and no file name matches two of the three patterns.", "quantifier": "all directory contents and all products", "why_tests_cant": "Directory contents are unbounded.", "anchors": ["msat/xrit/fileaccess.cpp: prologueFile,epilogueFile,segmentFiles"]}
{"id": "C08", "title": "The segment cache is invisible", "statement": "After any history of line reads, reading a segment returns the same data as reading its file directly, and at most two segments are ever held in memory.", "quantifier": "all histories of accesses", "why_tests_cant": "The cache state depends on the whole access history.", "anchors": ["msat/xrit/dataaccess.cpp: DataAccess::segment"]}
{"id": "C09", "title": "Each image line is read from its own segment row", "statement": "For a full-disk product, the map from image line number to (segment file, row in segment) is a bijection between the image lines and the rows of all segments, reversing the scan direction (south to north, and east to west when the column scaling factor is negative).", "quantifier": "all lines, all segment counts and sizes", "why_tests_cant": "The mapping must be right for each of 3712 or 11136 lines and any segment geometry.", "anchors": ["msat/xrit/dataaccess.cpp: DataAccess::line_read,scanSegment"]}
{"id": "C10", "title": "Missing segments read as missing data and never shift other lines", "statement": "If some segment files of a product are absent, the lines they would contain read as zeros and every other line reads the same as in the complete product.", "quantifier": "all subsets of absent segments and all lines", "why_tests_cant": "2^24 subsets of segments.", "anchors": ["msat/xrit/dataaccess.cpp: scan,segment,line_read"]}
{"id": "C11", "title": "HRV lines are placed inside the full-disk row", "statement": "For HRV products, the starting column computed for each line places the segment row entirely inside the 11136 columns of the output row, in the lower window for lines of the lower area and in the upper window for lines of the upper area, and nowhere else.", "quantifier": "all lines and all window positions announced by the epilogue", "why_tests_cant": "The window position varies by product and by line.", "anchors": ["msat/xrit/dataaccess.cpp: DataAccess::line_start", "gdal/xrit/rasterband.cpp: IReadBlock"]}
{"id": "C12", "title": "A raster block request fills exactly one row", "statement": "When the line fits in the row at its starting column, a block read fills exactly the nBlockXSize pixels of the row: zero outside the data window and the (calibrated) sample inside, calibrated values being neither negative nor not-a-number; requests for other column blocks fail without writing.", "quantifier": "all samples, windows that fit, calibration tables that cover the samples, and block numbers", "why_tests_cant": "All pixel values of all products.", "anchors": ["gdal/xrit/rasterband.cpp: XRITRasterBand::IReadBlock"]}
{"id": "C13", "title": "Spacecraft identifiers convert back and forth", "statement": "Converting a spacecraft code from HRIT to WMO numbering and back gives the original code, for every code that the conversion accepts, in both directions.", "quantifier": "all integers", "why_tests_cant": "The domain is all integers; accidental collisions only show on unlisted values.", "anchors": ["msat/facts.cpp: spacecraftIDFromHRIT,spacecraftIDToHRIT"]}
{"id": "C14", "title": "Spacecraft names identify spacecraft", "statement": "Looking up the identifier of the name of a spacecraft returns that spacecraft, for every known spacecraft; names are pairwise different; unknown names are reported as unknown.", "quantifier": "all identifiers and all name strings", "why_tests_cant": "All strings as names.", "anchors": ["msat/facts.cpp: spacecraftName,spacecraftID"]}
{"id": "C15", "title": "Julian day is the day of the year", "statement": "For every valid Gregorian date the computed day number equals one plus the number of days elapsed since January 1st of that year; it is between 1 and 365 (366 in leap years), strictly increasing within a year, and consecutive days differ by one.", "quantifier": "all years, months and days", "why_tests_cant": "Unbounded years; leap-year rules at century boundaries.", "anchors": ["msat/facts.cpp: jday"]}
{"id": "C16", "title": "Channels and their central wavelengths identify each other", "statement": "For every SEVIRI channel, looking up the channel from its central wavelength returns the channel; wavelengths outside every channel yield no channel; channel names, units and levels are defined for each channel number.", "quantifier": "all channels and all wavelengths", "why_tests_cant": "Wavelengths are a continuum.", "anchors": ["msat/facts.cpp: channel_central_wavelength,channel_from_central_wavelength,channelName,channelUnit,channelLevel"]}
{"id": "C17", "title": "Geotransform inversion is an inverse", "statement": "Whenever inversion of a geotransform succeeds, transforming pixel coordinates with one matrix and then with the other gives the starting coordinates, both ways; inversion fails only for (near-)singular matrices.", "quantifier": "all six-coefficient matrices and all points", "why_tests_cant": "Continuum of matrices and points.", "anchors": ["msat/gdal/dataset.cpp: invertGeoTransform,pixelToProjected,projectedToPixel"]}
{"id": "C18", "title": "Pixel and projected coordinates round-trip", "statement": "For an image georeferenced with offset and pixel size, converting a pixel to projected coordinates and back returns the same pixel.", "quantifier": "all pixels and all georeferences with non-zero pixel size", "why_tests_cant": "All pixels of all images.", "anchors": ["msat/gdal/dataset.cpp: GeoReferencer::pixelToProjected,projectedToPixel", "msat/gdal/points.h"]}
{"id": "C19", "title": "Cropping never reads outside the source image", "statement": "A crop/translate request either is rejected or selects a source window entirely inside the source image, with positive size, whichever way the window was specified.", "quantifier": "all image sizes and all requested windows", "why_tests_cant": "All integer windows including overflowing ones.", "anchors": ["msat/gdal/gdaltranslate.cpp: GDALTranslate::translate"]}
{"id": "C20", "title": "Cropping keeps the georeference of every pixel", "statement": "After a crop or a resize, each pixel of the output is georeferenced at the same projected point as the source point it represents.", "quantifier": "all geotransforms, windows and scale factors", "why_tests_cant": "Continuum of geotransforms.", "anchors": ["msat/gdal/gdaltranslate.cpp: translate (geotransform and GCP adjustment)"]}
{"id": "C21", "title": "Splitting and joining are inverse", "statement": "Splitting a string on a separator and joining the parts with that separator gives back the string; splitting while skipping empty parts yields exactly the non-empty parts; splitting always terminates.", "quantifier": "all strings and all separators", "why_tests_cant": "All strings and separators.", "anchors": ["msat/utils/string.cc: Split", "msat/utils/string.h: join", "tools/msat.cpp: split"]}
{"id": "C22", "title": "URL encoding round-trips", "statement": "Decoding the URL-encoding of any byte string returns the byte string, and the encoding contains only URL-safe characters.", "quantifier": "all byte strings", "why_tests_cant": "All byte strings.", "anchors": ["msat/utils/string.cc: encode_url,decode_url"]}
{"id": "C23", "title": "Base64 encoding round-trips", "statement": "Decoding the base64 encoding of any byte string returns the byte string, and the encoding has length 4*ceil(n/3) over the base64 alphabet.", "quantifier": "all byte strings", "why_tests_cant": "All byte strings of all lengths.", "anchors": ["msat/utils/string.cc: encode_base64,decode_base64"]}
{"id": "C24", "title": "C-string escaping round-trips", "statement": "Decoding the C-string encoding of any byte string returns the byte string, and reports as consumed length exactly the encoded length.", "quantifier": "all byte strings", "why_tests_cant": "All byte strings, including control bytes.", "anchors": ["msat/utils/string.cc: encode_cstring,decode_cstring"]}
{"id": "C25", "title": "Path helpers agree with path structure", "statement": "dirname and basename split a path at its last component; joining them gives an equivalent path; normalising a path removes '.', '..' and repeated slashes and is idempotent; joining paths puts exactly one slash between parts.", "quantifier": "all path strings", "why_tests_cant": "All path strings.", "anchors": ["msat/utils/string.cc: basename,dirname,appendpath,normpath"]}
{"id": "C26", "title": "Stripping removes exactly the surrounding blanks", "statement": "strip removes the maximal leading and trailing runs of white space and nothing else; lstrip and rstrip do so on one side only; all are idempotent.", "quantifier": "all strings", "why_tests_cant": "All strings.", "anchors": ["msat/utils/string.cc: lstrip,rstrip,strip"]}
{"id": "C27", "title": "OpenMTP-IDS files round-trip", "statement": "Reading back an OpenMTP-IDS file written by the library returns the same file header, records, line headers and pixels, for every consistent content.", "quantifier": "all headers, numbers of records and lines, and pixel values", "why_tests_cant": "All file contents.", "anchors": ["msat/omtp-ids/OpenMTP-IDS.cc", "msat/omtp-ids/FileHeader.cc", "msat/omtp-ids/Record.cc", "msat/omtp-ids/RecordHeader.cc", "msat/omtp-ids/ScanLine.cc", "msat/omtp-ids/LineHeader.cc"]}
{"id": "C28", "title": "Truncated OpenMTP-IDS files are rejected", "statement": "Reading a proper prefix of a file written by the library reports an error: it never returns a shorter or altered image as if complete.", "quantifier": "all files and all truncation points", "why_tests_cant": "All truncation points of all files.", "anchors": ["msat/omtp-ids/Record.cc: operator>>", "msat/omtp-ids/ScanLine.cc: operator>>", "msat/omtp-ids/OpenMTP-IDS.cc: operator>>"]}
{"id": "C29", "title": "OpenMTP-IDS scan line ranges", "statement": "Asking for scan lines from a to b returns lines a..b-1 of the concatenation of all records in order; asking for all scan lines returns every line; asking for line i returns line i.", "quantifier": "all images and all ranges", "why_tests_cant": "All partitions of lines into records and all ranges.", "anchors": ["msat/omtp-ids/OpenMTP-IDS.cc: scanline"]}
{"id": "C30", "title": "MSG native 10-bit samples are unpacked exactly", "statement": "Unpacking a line of packed 10-bit samples returns exactly the samples that were packed, in order, without reading or writing outside the buffers.", "quantifier": "all sample sequences", "why_tests_cant": "2^10 values per sample and unbounded lengths.", "anchors": ["msat/msg-native/MSG_native_line.cpp: MSG_native_linedata::to_sample"]}
{"id": "C31", "title": "MSG native header and trailer lengths are consistent", "statement": "The level 1.5 header and trailer readers consume exactly the announced packet length, the sum of the lengths of their parts, and reject packets announcing another length.", "quantifier": "all packets", "why_tests_cant": "Lengths are data-dependent.", "anchors": ["msat/msg-native/MSG_native_header.cpp: read", "msat/msg-native/MSG_native_trailer.cpp: read", "msat/msg-native/MSG_native_packetheader.cpp"]}
{"id": "C32", "title": "HRI image lines are stored where they are read", "statement": "After any sequence of line writes to an HRI image, reading a line or a pixel returns the data of the last write to that line; other lines are unaffected; nothing is written outside the image.", "quantifier": "all sequences of line writes and reads", "why_tests_cant": "Histories of writes.", "anchors": ["msat/hri/HRI_image.cpp: put_line,get_line,get_pixel,set_format_band"]}
{"id": "C33", "title": "HRI half lines compose full lines", "statement": "Writing the two halves of a line with the half-line operation is the same as writing the whole line.", "quantifier": "all lines and pixel values", "why_tests_cant": "All lines and values.", "anchors": ["msat/hri/HRI_image.cpp: put_halfline"]}
{"id": "C34", "title": "IBM floating point numbers are converted exactly", "statement": "A 4-byte IBM hexadecimal float read from an HRI file is converted to the IEEE number with the same value, for every IBM number whose value is representable.", "quantifier": "all 32-bit patterns", "why_tests_cant": "2^32 patterns.", "anchors": ["msat/hri/HRI_machine.cpp: r4_from_buff,r8_from_buff"]}
{"id": "C35", "title": "HRI formats are classified by their label", "statement": "The format code derived from a label determines uniquely the format family and bands; each recognised code has exactly one set of image dimensions. The bits of the encryption byte say which channels are encrypted.", "quantifier": "all label contents", "why_tests_cant": "All labels.", "anchors": ["msat/hri/HRI_subframe_label.cpp", "msat/hri/HRI.cpp", "msat/hri/HRI_image.cpp: set_format_band"]}
{"id": "C36", "title": "The INI dictionary behaves as a map", "statement": "After any sequence of set, unset and get operations the dictionary returns for each key the last value set and not unset since, or the default; the stored entries are never lost when the dictionary grows.", "quantifier": "all histories of operations, all keys including hash collisions", "why_tests_cant": "Hash collisions and growth boundaries depend on the history.", "anchors": ["msat/iniparser.c: dictionary_set,dictionary_get,dictionary_unset,dictionary_hash"]}
{"id": "C37", "title": "INI lookups ignore case and sections are counted once", "statement": "iniparser lookups of an entry are insensitive to the case of the key; the number of sections equals the number of distinct section names set, and each section number below it yields a section name.", "quantifier": "all keys and all dictionaries", "why_tests_cant": "All keys and dictionaries.", "anchors": ["msat/iniparser.c: iniparser_getstring,iniparser_getnsec,iniparser_getsecname,strlwc"]}
{"id": "C38", "title": "Atomic file write is atomic with respect to crashes", "statement": "At every point where the process may stop during write_file_atomically, the destination file has either its previous content or the complete new content; after a successful return it has the new content; no other file is modified.", "quantifier": "all crash points, all previous states of the file system, all schedules of partial writes", "why_tests_cant": "Crash points between system calls cannot be enumerated by a test suite.", "anchors": ["msat/utils/sys.cc: write_file_atomically,write_file"]}
{"id": "C39", "title": "Retried reads and writes transfer every byte once", "statement": "Under every schedule of short reads and short writes, write_all_or_retry appends exactly the buffer to the file once and in order; read_all_or_retry returns the next bytes of the file exactly, false at end of file, or an error if the file ends in the middle.", "quantifier": "all schedules of short transfers", "why_tests_cant": "All schedules.", "anchors": ["msat/utils/sys.cc: FileDescriptor::read_all_or_retry,write_all_or_retry,read_all_or_throw,write_all_or_throw"]}
{"id": "C40", "title": "Recursive removal removes the tree and nothing else", "statement": "rmtree removes the directory and everything below it, and nothing outside it; in particular it does not follow symbolic links.", "quantifier": "all directory trees", "why_tests_cant": "All trees and link structures.", "anchors": ["msat/utils/sys.cc: Path::rmtree, Path::iterator::isdir"]}
{"id": "C41", "title": "Elapsed time is the clock difference", "statement": "The elapsed time between two normalised instants is their difference in nanoseconds, or zero if the second precedes the first.", "quantifier": "all pairs of timestamps", "why_tests_cant": "All timestamps.", "anchors": ["msat/utils/sys.cc: timesec_elapsed"]}
{"id": "C42", "title": "Waiting for a child process reports termination", "statement": "After a child process has terminated, every later poll or wait reports that it has, whatever sequence of polls and waits came before; its exit status is reported unchanged.", "quantifier": "all interleavings of child events and wait calls", "why_tests_cant": "Interleavings of process events and calls.", "anchors": ["msat/utils/subprocess.cc: Child::poll,wait"]}
{"id": "C43", "title": "Child environment settings behave as a map", "statement": "After any sequence of environment settings for a child process, each variable set has the last value given, other variables keep the inherited value, and no variable is duplicated by setting.", "quantifier": "all histories of settings and inherited environments", "why_tests_cant": "All environments and histories.", "anchors": ["msat/utils/subprocess.cc: Popen::setenv"]}
{"id": "C44", "title": "NetCDF and GRIB export keep the georeference", "statement": "Exporting an image to NetCDF, NetCDF-24 or GRIB and opening the result gives a geotransform with the same origin pixel, for every crop of a full-disk image.", "quantifier": "all crops", "why_tests_cant": "All crop offsets.", "anchors": ["gdal/netcdf/netcdf.cpp: NetCDFCreateCopy,GetGeoTransform", "gdal/netcdf/netcdf24.cpp", "gdal/grib/grib.cpp: grid_definition_section,GetGeoTransform"]}
{"id": "C45", "title": "GRIB dates round-trip", "statement": "Setting the reference time of a GRIB message and reading it back gives the same date and time, in both editions.", "quantifier": "all dates", "why_tests_cant": "All dates, centuries.", "anchors": ["gdal/grib/utils.h: Grib::setTime,formatTime"]}
{"id": "C46", "title": "NetCDF export keeps the pixel type", "statement": "Exporting a band to NetCDF and reopening it yields the same pixel type and the same missing value.", "quantifier": "all pixel types and missing values", "why_tests_cant": "All values of each type.", "anchors": ["gdal/netcdf/utils.cpp: rasterBandToNcVar,NetCDFRasterBand"]}
{"id": "C47", "title": "Grey stretch is bounded and monotone", "statement": "Stretching an image to 8 bits maps values at or below the minimum to 0 and at or above the maximum to 255, and is monotone; the computed minimum and maximum are those of the non-missing values.", "quantifier": "all images", "why_tests_cant": "All images.", "anchors": ["tools/image.cpp: Stretch::compute_if_needed,rescale"]}
{"id": "C48", "title": "Reflectances are percentages", "statement": "Every reflectance computed from a channel lies in the range 0 to 100, for every radiance, day, sun position and pixel.", "quantifier": "all radiances and geometries", "why_tests_cant": "Continuum.", "anchors": ["gdal/reflectance/reflectance.cpp: SingleChannelReflectanceRasterBand::IReadBlock", "gdal/reflectance/cos_sol_za.cpp", "gdal/reflectance/sat_za.cpp"]}
{"id": "C49", "title": "Reflectance sources can be added in any order", "statement": "The sources of a multi-channel reflectance computation can be added in any order with the same result, mismatching sources are rejected in every order, and the computation starts only when all required channels are present.", "quantifier": "all sequences of sources", "why_tests_cant": "All sequences.", "anchors": ["gdal/reflectance/base.cpp: add_info", "gdal/reflectance/reflectance.cpp: add_source,init_rasterband"]}
{"id": "C50", "title": "OpenMTP products are classified consistently", "statement": "Every OpenMTP channel code is exactly one of visible, infrared and water vapour; A-format, B-format and sub-window products are mutually exclusive and cover all products.", "quantifier": "all header contents", "why_tests_cant": "All headers.", "anchors": ["msat/openmtp/OpenMTP_binary_header.cpp", "msat/openmtp/OpenMTP.cpp: is_A_format,is_B_format,is_subwindow"]}
{"id": "C51", "title": "OpenMTP header sections never exceed the header buffer", "statement": "Reading an OpenMTP binary header or an image line never stores beyond the reader's buffers, for any header content.", "quantifier": "all headers", "why_tests_cant": "All header contents.", "anchors": ["msat/openmtp/OpenMTP_binary_header.cpp: read_from", "msat/openmtp/OpenMTP_image_line.cpp: read_from", "msat/openmtp/OpenMTP_image.cpp"]}
{"id": "C52", "title": "File mappings and descriptors are released exactly once", "statement": "Under any sequence of moves, assignments and destructions, each memory mapping and each managed file descriptor is released exactly once, and never used after release.", "quantifier": "all sequences of operations", "why_tests_cant": "All sequences of moves.", "anchors": ["msat/utils/sys.cc: MMap,ManagedNamedFileDescriptor"]}
{"id": "C53", "title": "Several images on one command line are each given what was asked", "statement": "When the converter is given several images on one command line together with a window, a size or an area, each image is converted with the window, size and area that the command line asks for, independently of the images before it.", "quantifier": "all lists of images, sizes and options", "why_tests_cant": "Every list of images and sizes.", "anchors": ["tools/msat.cpp: Msat::main, Msat::scale_if_needed, Msat::parse_cmdline"]}
{"id": "C54", "title": "Sample scaling stays in range", "statement": "Scaling samples to 8 bits for display maps the source range onto the destination range: the ends go to the ends, order is preserved, and every sample in the source range goes inside the destination range.", "quantifier": "all source and destination ranges and all samples", "why_tests_cant": "Real intervals are infinite.", "anchors": ["msat/gdal/gdaltranslate.cpp", "tools/msat.cpp: Msat::main"]}
{"id": "C55", "title": "Size limits are respected", "statement": "An image larger than the maximum size is reduced so that both dimensions fit, keeping the aspect ratio up to rounding, and stays non-empty; an image that fits is left alone.", "quantifier": "all image sizes and limits", "why_tests_cant": "All pairs of sizes.", "anchors": ["tools/msat.cpp: Msat::scale_if_needed"]}
{"id": "C56", "title": "URL decoding accepts any text", "statement": "URL decoding of any text terminates without undefined behaviour; an escape of two hexadecimal digits of either case stands for its byte, every other byte for itself, and an incomplete escape at the end is ignored.", "quantifier": "all byte strings", "why_tests_cant": "All byte strings.", "anchors": ["msat/utils/string.cc: decode_url"]}
{"id": "C57", "title": "Prefix, suffix and case helpers", "statement": "startswith and endswith hold exactly when the string begins or ends with the given part; upper and lower change letters only, keep the length, and are idempotent.", "quantifier": "all byte strings", "why_tests_cant": "All byte strings.", "anchors": ["msat/utils/string.h: startswith, endswith, upper, lower"]}
{"id": "C58", "title": "base64 decoding of any text is safe, and text that is no base64 is not taken for other text", "statement": "base64 decoding of any byte string terminates without reading outside the decoding table; a text that is no base64 (without its padding, or with bytes outside the alphabet) is not decoded as if it were another text.", "quantifier": "all byte strings", "why_tests_cant": "All byte strings.", "anchors": ["msat/utils/string.cc: decode_base64, invbase64"]}
{"id": "C59", "title": "Native image lines reach their channels", "statement": "After a native image has been read, the data of every selected channel is the samples of the lines of that channel in file order, line after line, for every set of selected channels and every number of lines in the documented interleaving (one line of each selected channel, three of the high resolution one, per line of the image); closing the file releases every line exactly once.", "quantifier": "every selection of channels, number of lines, number of columns and content of the lines", "why_tests_cant": "the interleaving depends on the selection and lines are owned through copies; a test sees one selection and freed memory often still holds its content", "anchors": ["msat/msg-native/MSG_native.cpp: MSG_native::read", "msat/msg-native/MSG_native_line.cpp: MSG_native_linedata", "msat/msg-native/MSG_native.h"]}
{"id": "C60", "title": "Native packet and line headers recover all fields", "statement": "Reading a packet header (38 bytes) or a line header (27 bytes) yields for every member the value that was encoded at its place, for all values of all members.", "quantifier": "all values of all members, at any position in the file", "why_tests_cant": "the product of the member ranges is astronomically large; an overlapping or shifted offset shows only for particular values", "anchors": ["msat/msg-native/MSG_native_packetheader.cpp", "msat/msg-native/MSG_native_line.cpp"]}
{"id": "C61", "title": "Native text header entries are recovered", "statement": "For every native file whose text header holds texts in its fields of fixed width, NUL padded, reading the header yields each text (key and value) unchanged, in order.", "quantifier": "every assignment of texts without NUL to the fields, each shorter than its field", "why_tests_cant": "fields are found through a table of offsets; a wrong offset shows only for particular texts", "anchors": ["msat/msg-native/MSG_native_header.cpp", "msat/msg-native/MSG_native_header.h"]}
{"id": "C62", "title": "INI files are read as written", "statement": "Reading an INI file yields, for every section and every key, the value that the document assigns to it: keys and section names without regard to case, values with or without quotes, blanks around names and values ignored, comments ignored, the last assignment winning; a file that cannot be opened yields no dictionary.", "quantifier": "every document: every sequence of blank lines, comments, sections and entries, with any blanks, quotes and comments", "why_tests_cant": "the layout freedom of the format is unbounded and interacts with buffers and sscanf patterns", "anchors": ["msat/iniparser.c: iniparser_new, strskp, strcrop, strlwc, iniparser_add_entry"]}
{"id": "C63", "title": "A file that has been written is read back", "statement": "After write_file or write_file_atomically has returned, read_file of the same path yields exactly the bytes written, whatever the file contained before.", "quantifier": "every path, content, previous content and every way the system splits or interrupts the transfers", "why_tests_cant": "contents and schedules of partial transfers are unbounded", "anchors": ["msat/utils/sys.cc: write_file, write_file_atomically, read_file"]}
{"id": "C64", "title": "OpenMTP pixels are recovered", "statement": "Opening a complete OpenMTP file gives an image with as many lines and pixels as its header says, and every pixel is the byte at its documented place in the file; a file that is cut short never gives an image.", "quantifier": "all files with sensible dimensions", "why_tests_cant": "All file contents and all dimensions.", "anchors": ["msat/openmtp/OpenMTP.cpp: OpenMTP::read", "msat/openmtp/OpenMTP_image.cpp: OpenMTP_image::read", "msat/openmtp/OpenMTP_image_line.cpp", "msat/openmtp/OpenMTP_binary_header.cpp: read"]}
{"id": "C65", "title": "OpenMTP dates", "statement": "The date and time reported for an OpenMTP product are those of its header, as a struct tm and as text.", "quantifier": "all headers that tell a date", "why_tests_cant": "All dates and all other header contents.", "anchors": ["msat/openmtp/OpenMTP.cpp: get_datetime,get_timestr"]}
{"id": "C66", "title": "Numbers in text fields", "statement": "A number written in digits (blanks standing for zeros) in a text field of an OpenMTP header or HRI subframe is read as the number it shows, with the decimal point at its place.", "quantifier": "all numerals of the width of the field", "why_tests_cant": "All digits, blanks and following bytes.", "anchors": ["msat/openmtp/OpenMTP_machine.cpp: r4_from_char5,r4_from_char3,int4_from_char3,int4_from_char2", "msat/hri/HRI_machine.cpp: r4_from_char6 to r4f_from_char5"]}
{"id": "C67", "title": "NetCDF times", "statement": "The time of an image written to a NetCDF file is read back as the same date, hour, minute and second, and the forecast reference time stored in the file is the number of seconds from the beginning of 2000 to that time.", "quantifier": "every date of the Gregorian calendar from 2000 to 9999 and every time of day (and, for the round trip, every combination of four and two digit numbers)", "why_tests_cant": "There are more than 10^11 instants, and leap years, centuries and seconds are exactly the cases that a few sample dates leave out.", "anchors": ["gdal/netcdf/netcdf.cpp: NetCDFDataset::init, NetCDFCreateCopy", "gdal/netcdf/utils.cpp: forecastSeconds2000"]}
{"id": "C68", "title": "Position of the sun", "statement": "The cosine of the solar zenith angle used for a pixel is the scalar product of the local vertical with the direction of the sun, for the declination and hour angle of the day and time: it is between -1 and 1, and it is 1 where the sun is overhead; a pixel without coordinates has none.", "quantifier": "every latitude, longitude, day of the year and time of day", "why_tests_cant": "The angles range over the reals.", "anchors": ["gdal/reflectance/cos_sol_za.cpp: cos_sol_za, CosSolZaRasterBand::IReadBlock"]}
{"id": "C69", "title": "Zenith angle of the satellite", "statement": "The satellite zenith angle of a pixel is the angle at the pixel between the local vertical and the direction of the satellite above the sub-satellite longitude, whatever that longitude is.", "quantifier": "every latitude and longitude seen by the satellite", "why_tests_cant": "The angles range over the reals.", "anchors": ["gdal/reflectance/sat_za.cpp: sat_za, SatZaRasterBand::IReadBlock"]}
{"id": "C70", "title": "Blocks of reflectances", "statement": "Every block of a reflectance band can be read when the pixels of the source can be read, for every raster size and block size.", "quantifier": "all raster sizes, block sizes and blocks", "why_tests_cant": "All combinations of sizes; the edges depend on divisibility.", "anchors": ["gdal/reflectance/reflectance.cpp: SingleChannelReflectanceRasterBand::IReadBlock, Reflectance39RasterBand::IReadBlock"]}
{"id": "C71", "title": "Scale factors, grid increments and pixel sizes", "statement": "Converting a scale factor or a grid increment, as stored in image files, to a pixel size and back gives the same number, and converting a pixel size to a factor and back gives the same size.", "quantifier": "every factor and increment that can be stored, every pixel size", "why_tests_cant": "The conversions go through trigonometric functions and a few tabulated values; only a proof shows that tabulated and computed values do not collide.", "anchors": ["msat/facts.cpp: pixelHSizeFromCFAC, CFACFromPixelHSize, seviriDXFromPixelHSize, pixelHSizeFromSeviriDX"]}
{"id": "C72", "title": "File descriptors of a child process", "statement": "A child process starts with the standard input, output and error that were asked for (a pipe, /dev/null, a file descriptor, the output stream, or those of the parent) and with no other descriptor than those to be passed; the parent keeps its own descriptors and one end of each pipe, none of which is left in the child, and has its own again when the object is destroyed.", "quantifier": "every set of open descriptors in the parent, every combination of redirections, every sequence of calls that close pipes", "why_tests_cant": "Descriptors are renumbered, duplicated and closed in an order that matters; there are 5^3 combinations of redirections for every table of open descriptors.", "anchors": ["msat/utils/subprocess.cc: Child::fork, pre_fork, post_fork_parent, post_fork_child, redirect, set_stdin, set_stdout, set_stderr, close_stdin, ~Child"]}
{"id": "C73", "title": "Reading a file in HRI format", "statement": "Reading a complete HRI file of any disseminated format (A, B or X, with or without TECNAVIA blocks) gives the label, seed, identification, interpretation data and keys of its first subframe, and images in which every line is the one transmitted, whatever the library read before and whatever follows; a file with wrong synchronisation marks or that ends early is refused.", "quantifier": "every disseminated format, every header, all pixel values, every previous contents of the static line buffer, every truncation", "why_tests_cant": "A file has millions of bytes in frames of 364; the number and order of frames depends on the format and the reader keeps state from one line and from one file to the next.", "anchors": ["msat/hri/HRI.cpp: HRI::readfrom, get_dataline, mod_get_dataline, getbuff, mod_getbuff", "msat/hri/HRI.hpp"]}
{"id": "C74", "title": "Identification of an HRI file", "statement": "The identification read from an HRI file (HRI_subframe_identification::readfrom) is what its 48 bytes say: the name of the satellite, the year, the month and day of the month of the day of the year, the weekday, hour and minute; it does not depend on the time zone of the machine. A satellite that is not known is refused, and exactly one of is_Meteosat, is_GOES_E, is_GOES_W, is_GMS and is_GOMS holds, the one the bytes say.", "quantifier": "every 48 bytes of identification, every day of every year from 1970, every time zone", "why_tests_cant": "The date goes through mktime and gmtime, and is right or wrong by the day, the year and the offset of the local clock; tests run in one time zone on a few dates.", "anchors": ["msat/hri/HRI_subframe_identification.cpp: readfrom, is_Meteosat, is_GOES_E, is_GOES_W, is_GMS, is_GOMS"]}
{"id": "C75", "title": "Keys of an HRI file", "statement": "For every table of 120 slots with keys, has_keys says whether some slot in use has the number of the station, and get_key gives the key of the first slot in use with the number of station and key asked for, or nothing if there is none.", "quantifier": "every table of 1440 bytes, every station number and key number", "why_tests_cant": "There are 2^11520 tables; the number of a station is in two bytes and tests use small ones.", "anchors": ["msat/hri/HRI_subframe_keyslot.cpp: readfrom, has_keys, get_key"]}
{"id": "C76", "title": "Interpretation data of an HRI file", "statement": "Every member of the interpretation data of an HRI file (calibration, operations, image parameters) has the value that its own bytes mean, by the layout of the format: decimal text with implied decimal places, integers in two or four bytes, IBM numbers, flags; the operator message is the last 800 bytes.", "quantifier": "every 1360 bytes of interpretation data, every member", "why_tests_cant": "More than a hundred members are each read from an offset in the code; swapping two of them shows only for inputs in which their bytes differ.", "anchors": ["msat/hri/HRI_subframe_interpretation.cpp: readfrom", "msat/hri/HRI_machine.cpp"]}
{"id": "C77", "title": "Calibration of HRI images", "statement": "For every image of an HRI file that was read, get_calibration gives for each of the 256 counts what the count stands for, in the unit of the image: for thermal images the temperature whose radiance, exp(A + B/T), is the calibration coefficient of the file times the count above that of space, 0 for counts up to that of space, never decreasing with the count; for visible images percentages from 0 to 100. It depends on nothing but the file.", "quantifier": "every file of every disseminated format, every calibration coefficient and space count that can be written in it, every satellite, every count", "why_tests_cant": "The table depends on the decimal text in the file, on the format and on the satellite; the tables of the formats that tests have no files for are never computed, and a variable that was not set may happen to hold zero.", "anchors": ["msat/hri/HRI_image.cpp: set_calibration, get_calibration", "msat/hri/HRI.cpp: readfrom"]}
{"id": "C78", "title": "Images exported to GRIB keep their content", "statement": "For every image, template and file name: an image exported to GRIB and opened again has the size, satellite and channel of the source; pixels that were missing are still missing and every other pixel reads as value*scale+offset of the source to within the packing of the format; an image with no valid pixel, an image with several bands and an unknown template are refused; the dataset handed back is the exported file.", "quantifier": "every source dataset, band metadata, pixel contents, template name and existing file content", "why_tests_cant": "Tests export a handful of images; a pixel whose physical value is zero, a scale other than one, a stale file or several bands are combinations of inputs that only a statement over all images covers.", "anchors": ["gdal/grib/grib.cpp: GRIBCreateCopy, CreateGRIB, GRIBDataset::init, GRIBRasterBand, GRIBOpen", "gdal/grib/utils.h: Grib", "msat/facts.cpp: defaultScaledMissing"]}
{"id": "C79", "title": "Bands selected on the command line", "statement": "For every list of images and every list of --band options: each image given on one command line is converted with exactly the bands asked for, by number or by name, in the order given, and is skipped if it has none of the names asked for; without --band every image is converted with all its bands; a band an image does not have is refused.", "quantifier": "every list of images with any sizes and channel names, and every list of --band arguments", "why_tests_cant": "The state of the converter is carried from one image of the command line to the next, so only a statement over all sequences of images says what one of them is converted to; numbers out of range are unbounded.", "anchors": ["tools/msat.cpp: Msat::main, rbindex_by_name", "msat/gdal/gdaltranslate.cpp: GDALTranslate::translate"]}
{"id": "C80", "title": "Names of output files", "statement": "For every image: the file name made for a conversion is made of satellite, sensor, level, channel and date to the minute, images that differ in one of satellite, channel and minute get different files, the name has no blank nor dot of the metadata in it, and the file is inside the current directory.", "quantifier": "every satellite, sensor, level, channel and time string of the metadata of an image", "why_tests_cant": "Two images overwrite each other only for particular pairs of metadata; injectivity is a statement over all pairs.", "anchors": ["tools/msat.cpp: output_file_name, escapeSpacesAndDots, Convert::process"]}
{"id": "C81", "title": "Forced calibration says the same of every pixel", "statement": "The image shown with --force-calibration says of every pixel the same as the original: a pixel is missing in one exactly if it is missing in the other, and otherwise its value is count*scale+offset with scale 1 and offset 0; the bands that are not counts are unchanged, size, names and units are the same, reading errors are passed on, and the announced minimum and maximum bound the values.", "quantifier": "every dataset, band, block, pixel, scale, offset and missing value", "why_tests_cant": "it is a relation between two datasets for every pixel value and every calibration, including those where the calibrated value meets the missing value", "anchors": ["msat/gdal/dataset.cpp: CalibratedDataset, CalibratedRasterBand, ProxyRasterBand", "tools/msat.cpp: Msat::main"]}
{"id": "C82", "title": "xRIT images are what the files say", "statement": "An xRIT image has the satellite, channel, date to the minute, size and subsatellite longitude written in the prologue and header, and a geotransform centred on the subsatellite point with the grid step of the prologue; the pixels of solar channels measure slope*count+offset, those of thermal channels are the brightness temperature whose Planck radiance is slope*count+offset, growing with the count; pixels with count 0 are missing.", "quantifier": "every prologue, header, channel, calibration and count", "why_tests_cant": "temperatures are transcendental functions of calibration coefficients that change with every image; tests compare a few pixels of one image", "anchors": ["gdal/xrit/dataset.cpp: XRITDataset::init", "gdal/xrit/rasterband.cpp: XRITRasterBand", "msat/hrit/MSG_data_RadiometricProc.cpp: get_calibration, get_slope_offset"]}
{"id": "C83", "title": "Opening xRIT images and computed images", "statement": "A name opens the image, or with a suffix or the option MSAT_COMPUTE what is computed from it: reflectance of the channel (for IR_039 from three channels of the same product), cosine of the sun zenith angle, satellite zenith angle, day of the year; it has the georeference, date, size and metadata of the image.  Whatever fails on the way, every dataset opened is closed exactly once: nothing is lost, and the new dataset owns those it reads.", "quantifier": "every name, option, set of files and failure point", "why_tests_cant": "leaks and dangling sources depend on which of several nested openings fails; tests open files that are there", "anchors": ["gdal/xrit/xrit.cpp: XRITOpen", "gdal/utils.cpp: add_extras", "gdal/reflectance/reflectance.cpp: ReflectanceDataset::add_source, init_rasterband", "gdal/reflectance/cos_sol_za.cpp", "gdal/reflectance/sat_za.cpp", "gdal/reflectance/jday.cpp"]}
{"id": "C84", "title": "Computed images are for the time of the image", "statement": "The day of the year and the position of the sun that are computed from an xRIT image are those of the beginning of its acquisition in the prologue, to the minute.", "quantifier": "every date and time of acquisition", "why_tests_cant": "the date goes through text that is written by one driver and parsed by another; leap years and day boundaries are many", "anchors": ["gdal/xrit/dataset.cpp: XRITDataset::init", "gdal/reflectance/cos_sol_za.cpp: CosSolZARasterBand", "gdal/reflectance/jday.cpp: JDayRasterBand", "msat/facts.cpp: jday"]}
{"id": "C85", "title": "Images exported to NetCDF can be opened again", "statement": "An image that is exported to a NetCDF file and opened again has the same satellite, date, size, projection, geotransform and the same bands in the same order, each with its name, type, pixels, missing value, scale, offset, unit and channel; nothing is invented for what the image does not have; old files with the offset mistake are read with the right offset.", "quantifier": "every image, every combination of present and missing metadata, every list of bands, every spatial reference", "why_tests_cant": "There are many combinations of metadata, types, names and references; tests export one well formed image.", "anchors": ["gdal/netcdf/netcdf.cpp:NetCDFCreateCopy", "gdal/netcdf/netcdf.cpp:NetCDFOpen", "gdal/netcdf/netcdf.cpp:NetCDFDataset::init", "gdal/netcdf/utils.cpp:rasterBandToNcVar", "gdal/netcdf/utils.cpp:NetCDFRasterBand"]}
{"id": "C86", "title": "Images exported to NetCDF-24 can be opened again", "statement": "An image that is exported to a NetCDF-24 file and opened again has the same satellite, date, size, projection, geotransform and the same bands in the same order; an image that the format cannot hold is refused when it is written.", "quantifier": "every image, every satellite, every date, every list of bands", "why_tests_cant": "Tests use one image of one of the two satellites that can be read.", "anchors": ["gdal/netcdf/netcdf24.cpp:NetCDF24CreateCopy", "gdal/netcdf/netcdf24.cpp:NetCDF24Open", "gdal/netcdf/netcdf24.cpp:NetCDF24Dataset::init"]}
{"id": "C87", "title": "Reading an xRIT file of any type gives the content of its data field", "statement": "Reading a whole xRIT file with MSG_HRIT or MSG_data gives, in the member for its type and in no other: the text of a text message, the bytes of a meteorological message, the keys of a key message, the decompressed samples of an image (as many as columns times lines in the header), the members of the common header and the specific data of a foreign satellite's prologue, the members of the MSG epilogue; nothing is read of a data collection message. A file that is too short, of an unknown type or without the records needed raises an exception, and reading creates no file.", "quantifier": "every header (list of records), every data field and following bytes, every outcome of memory allocation and of the decompression library", "why_tests_cant": "header records, lengths and types come from the file; a test covers one file of one type, not all lengths and combinations of records", "anchors": ["msat/hrit/MSG_data.cpp:read_from", "msat/hrit/MSG_HRIT.cpp:read", "msat/hrit/MSG_data_image.cpp:decode", "msat/hrit/MSG_data_text.cpp", "msat/hrit/MSG_data_gts.cpp", "msat/hrit/MSG_data_key.cpp", "msat/hrit/MSG_data_SGS_header.cpp"]}
{"id": "C88", "title": "Printing an xRIT file that was read shows its content", "statement": "After reading an xRIT file, printing its data shows, for an image, all its samples in order; for a text message, the text; for a key message, every key with its station number and checksum; and is defined for every file that can be read.", "quantifier": "every file that can be read, of any type and content", "why_tests_cant": "undefined behaviour depends on the content (presence of a NUL, type of file); tests print one file of the usual type", "anchors": ["msat/hrit/MSG_data.cpp:operator<<", "msat/hrit/MSG_data_image.cpp:operator<<", "msat/hrit/MSG_data_text.cpp:operator<<", "msat/hrit/MSG_data_key.cpp:operator<<"]}
{"id": "C89", "title": "The lines of a product are those in the bytes of its files", "statement": "Scanning the segment files of a product, in any order and with any of them missing, then reading any line after any other lines, gives the row that the decompression library makes of the data field of the file of its segment (from the end when the columns are numbered from the other side), or zeros if that file is missing. Each file is known by its own header only.", "quantifier": "every set of files on disk with well-formed headers, every order and subset of them, every history of lines read, every line", "why_tests_cant": "composition of header parsing, scanning with a shared header object, segment cache and decompression over all files and histories", "anchors": ["msat/xrit/dataaccess.cpp:scan", "msat/xrit/dataaccess.cpp:read_file", "msat/xrit/dataaccess.cpp:segment", "msat/xrit/dataaccess.cpp:line_read", "msat/hrit/MSG_header.cpp:read_from"]}
{"id": "C90", "title": "Setting a channel of a Thorn SDS image gives its samples and calibration table", "statement": "After any sequence of opening a Thorn SDS image directory, asking for channels and setting channels, setting a channel that the directory has gives the bytes of its RAW file, their number, the name of the channel in INFO.DBI, 2^BitsPerPixel calibration values, and for every count the value that the Calibration document of that channel has for its variable (temperature, radiance of solar and of other channels) and that count, 0 if it has none.", "quantifier": "every directory (documents, channels, samples), every history of the object, every channel of it and every count", "why_tests_cant": "tests use one directory; keys are built with truncating buffers from names in the documents, and the table depends on all of them and on what was set before", "anchors": ["msat/thornsds_db1/thornsds_db1.cpp:open", "msat/thornsds_db1/thornsds_db1.cpp:set_channel", "msat/thornsds_db1/thornsds_db1.cpp:get_value_calibrated", "msat/thornsds_db1/thornsds_db1.cpp:chname_to_chnum_info"]}
{"id": "C91", "title": "Queries of a Thorn SDS image answer from its documents, of the channel that is set", "statement": "While a channel is set, every query of the area, the satellite, the schedule and the image gives the entry of the AoI or INFO.DBI document under its key, whatever the case of letters, or its default; queries of the channel and its coefficients answer from the section and the Calibration document of the channel set last. After close nothing is answered. No sequence of calls is undefined, and a failure to set a channel leaves no mixture of two channels.", "quantifier": "every pair of documents, every history of the object, every query", "why_tests_cant": "entries, defaults and histories combine freely; a test shows some entries of one directory", "anchors": ["msat/thornsds_db1/thornsds_db1.cpp", "msat/thornsds_db1/thornsds_db1.h:ThornSDS_DB1", "msat/iniparser.c"]}
{"id": "C92", "title": "Exported Thorn SDS images have the samples, calibration, georeference and time of the channel", "statement": "db1_to_netcdf writes one NetCDF file in the current directory, named after satellite, channel and beginning, with the samples, size, calibration table, names, scale factors, offsets and time of the channel, the time also as seconds since 2000; db1_to_image writes a picture of the same samples and size with the overlay that was asked for. Bad input ends with an error status.", "quantifier": "every directory, channel, arguments, time zone and outcome of creating the file", "why_tests_cant": "sizes, dates and names come from the documents; time zones and uninitialised members depend on the place and the run", "anchors": ["tools/thornsds_db1/db1_to_netcdf.cpp:main", "tools/thornsds_db1/db1_to_image.cpp:main"]}
{"id": "C93", "title": "The OpenMTP-IDS tools copy, convert and cut what the file contains", "statement": "Copying an OpenMTP-IDS file gives a file with the same content. Converting it writes, for each of the three channels of the header, a grey map with the lines of that channel in the order of the file, under the name of its kind, and succeeds if any of them was written. Extracting the sector writes a file with the header of the image and its lines 2655 to 3164, in order, cut to pixels 546 to 801, that can be read back. A file that cannot be opened, is truncated or is damaged is reported with a failure status and nothing is written.", "quantifier": "every content of the input file, and which of the files can be opened and created", "why_tests_cant": "the content, sizes, order of channels and places where a file is cut are unbounded; tests try some files", "anchors": ["tools/omtp-ids/OpenMTP-IDS_write.cc:main", "tools/omtp-ids/OpenMTP-IDS_to_pgm.cc:write_channel_pgm", "tools/omtp-ids/OpenMTP-IDS_sector.cc:repack", "msat/omtp-ids/OpenMTP-IDS.cc:read"]}
{"id": "C94", "title": "Programs that put together the segments of an xRIT product", "statement": "XRIT2Image and XRIT2NetCDF find the segment files of the product that is asked for, in any order and with any of them missing, and write one image: in the picture every row is the line the library reads for the product (north at the top); in the NetCDF file the samples are those of the window asked for, the time is that of the prologue, and the calibration table gives for every count the temperature, or the radiance, that the prologue gives it.", "quantifier": "every product, set of segments found and order of them, contents of the segments, window text, time and calibration of the prologue, option of the programs", "why_tests_cant": "Which segments arrive, in which order the file system lists them and which window is asked for is different in every run; the tests of the repository do not run these programs.", "anchors": ["tools/hrit/XRIT2Image.cpp main, PictureProduct", "tools/hrit/XRIT2NetCDF.cpp main, NetCDFProduct, chname", "msat/hrit/MSG_channel.cpp MSG_channel_name", "msat/hrit/MSG_spacecraft.cpp MSG_spacecraft_name", "msat/hrit/MSG_data_RadiometricProc.cpp get_calibration"]}
{"id": "C95", "title": "The text printed for a number of an xRIT header tells which number it was", "statement": "Satellite, channel, kind of file, compression, data format and quality codes are printed as texts that say what the code means. Different known numbers have different texts, every unknown number has one text that no known number has, satellites have the names the library uses elsewhere, and the text of a channel has its wavelength.", "quantifier": "every number, known or not, of every kind of code, and every satellite and channel", "why_tests_cant": "Tests look at the codes of the files they have; a wrong or repeated entry of a table shows only for the satellite or the code it is about.", "anchors": ["msat/hrit/MSG_spacecraft.cpp MSG_spacecraft_name", "msat/hrit/MSG_channel.cpp MSG_channel_name", "msat/hrit/MSG_filetype.cpp MSG_filetype_name", "msat/hrit/MSG_compression.cpp", "msat/hrit/MSG_data_format.cpp", "msat/hrit/MSG_quality.cpp"]}
{"id": "C96", "title": "Zenith angles from scan angles, and reflectances from radiances", "statement": "The angle computed from a scan angle and the height of the satellite is the zenith angle of the satellite in the point seen, it grows with the scan angle and is that of the horizon out of the disk; radiances of the solar channels are converted to reflectances.", "quantifier": "every scan angle and height, every channel, radiance, day and sun angle", "why_tests_cant": "It is about all real angles.", "anchors": ["msat/hrit/MSG_data_RadiometricProc.cpp scan2zen, radiance_to_reflectance"]}
{"id": "C97", "title": "xritdump prints what the segments hold", "statement": "xritdump prints the geometry of the product, every segment in order, as missing or with its least and greatest sample and a picture of it, and a picture of the product. Every character stands for the sample in its place, by eight shades from the least to the greatest sample. It ends with status 0 exactly when help was asked for or all products were printed.", "quantifier": "every product, set of missing segments, size and samples, and every command line", "why_tests_cant": "Samples, sizes and missing segments are unbounded; tests do not run the program.", "anchors": ["tools/hrit/xritdump.cpp do_dump, main"]}
{"id": "C98", "title": "Exporting OpenMTP images to NetCDF", "statement": "OpenMTP_to_NetCDF writes one file, named after satellite, field and time of the header, with the pixels of the image, its dimensions, satellite, channel, unit, place on the disk, calibration and time, and ends with status 0; OpenMTP_info prints the header and ends with status 0. A file that cannot be exported gives an error status and leaves nothing.", "quantifier": "every OpenMTP file, of every satellite, channel, format, date, calibration and pixels, complete or cut short, and every command line", "why_tests_cant": "Headers, dates, calibrations and pixels are unbounded, and tests do not run these programs.", "anchors": ["tools/openmtp/OpenMTP_to_NetCDF.cpp NetCDFProduct, main", "tools/openmtp/OpenMTP_info.cc main", "msat/openmtp/OpenMTP.cpp", "msat/openmtp/OpenMTP_image.cpp", "msat/openmtp/OpenMTP_binary_header.cpp"]}
{"id": "C99", "title": "Exporting HRI images to NetCDF", "statement": "HRI2NetCDF writes one file for each image of a complete HRI file, named after satellite, format, band and time, with the pixels of the image, its dimensions, satellite, band, unit, place on the disk, calibration and time, and ends with status 0. A file that cannot be exported gives an error status and leaves nothing.", "quantifier": "every HRI file of every disseminated format, satellite, date, interpretation data and pixels, complete or cut short, every time zone and command line", "why_tests_cant": "Headers, dates, calibrations and pixels are unbounded, and tests do not run this program.", "anchors": ["tools/hri/HRI2NetCDF.cpp NetCDFProduct, main", "msat/hri/HRI.cpp", "msat/hri/HRI_image.cpp", "msat/hri/HRI_geolocation.h"]}
{"id": "C100", "title": "Native files as a whole and their tools", "statement": "Reading a complete MSG native file finds the channels, sizes and positions that its text header gives, and gives for each channel in the file its samples line after line, nothing for the others. native2Image writes one channel as an image in the format asked, the samples normalised and turned by half a turn, and ends with status 0; nativedump prints the samples. Files that cannot be read, and channels that are not there, give an error status.", "quantifier": "every native file: any text header entries, channel selection, sizes, positions, lines and samples, complete or cut short, and every command line", "why_tests_cant": "Headers, selections and samples are unbounded; no test reads a native file, and the memory errors show only under a checker.", "anchors": ["msat/msg-native/MSG_native.cpp MSG_native::read, data, lines, pixels, close", "msat/msg-native/MSG_native_line.cpp", "tools/msg-native/native2Image.cpp main", "tools/msg-native/nativedump.cpp main"]}
{"id": "C101", "title": "Members of the binary header of OpenMTP files", "statement": "Every accessor of the binary header of an OpenMTP file gives the value of its member in the file: numbers, arrays, texts and tests, for rectified and unrectified products and composites. Arrays have all the values of their member, results of different headers can be used together, and asking for a line that the tables do not have is an error.", "quantifier": "every content of all members of the header (any integers, floating point patterns and bytes), every product type, every sequence of calls of the accessors on any headers", "why_tests_cant": "About 140 accessors over a header of 192999 bytes with arbitrary content; wrong offsets and lengths show only for content that differs there, shared storage only for histories with two headers.", "anchors": ["msat/openmtp/OpenMTP_binary_header.cpp OpenMTP_binary_header", "msat/openmtp/OpenMTP_machine.cpp int2, int4, float4, float8"]}
{"id": "C102", "title": "Texts of times and generalized times", "statement": "The text of a time read from a header or a segment (days from 1958-01-01 and milliseconds, with or without microseconds and nanoseconds) is its date and time of day in the proleptic calendar with exactly three digits for each fraction; the texts of two times of the same kind are in the same order as the times, so different times have different texts. The coarse and fine texts of a CUC time are its bytes. A generalized time YYYYMMDDhhmmssZ is read to its date and time, and its Unix time is that of this date and time in UTC; what is not a generalized time is reported.", "quantifier": "all 16 bit days, 32 bit milliseconds, fractions below 1000; all CUC bytes; all dates of years 1900-9999, whatever follows in memory, whatever was read before, every time zone", "why_tests_cant": "The number of times is far beyond enumeration, calendars go wrong at month, year and leap boundaries, and the order of all pairs of texts is a relation no test settles.", "anchors": ["msat/hrit/MSG_time_cds.cpp MSG_time_cds_short::get_timestring, MSG_time_cds::get_timestring, MSG_time_cds_expanded::get_timestring", "msat/hrit/MSG_time_cds.cpp get_timechar", "msat/hrit/MSG_time_cds.cpp MSG_time_cuc", "msat/hrit/MSG_time_cds.cpp MSG_time_generalized"]}
{"id": "C103", "title": "The command line of msat", "statement": "The options of msat may be written in every way getopt_long documents (abbreviated as long as the name is unambiguous, with = or as the next word, letters joined or apart, among the files or before them, -- ends them); the program then works on exactly the files given, in order, and does what the options say: of several options about the same thing the last counts, bands add up, numbers are the decimal numbers written. An option that does not exist, an ambiguous name, a value where there is none, a missing value, fewer than four numbers or less than two sizes end the program with an error. A window --area inside of the image selects exactly these pixels; without window and size the whole image is taken, limited to 1280 pixels only if the result is a picture.", "quantifier": "all lists of arguments built from any settings in any order and form, all numbers with any digits, all files, all images", "why_tests_cant": "The combinations of options, forms, abbreviations and orders are unbounded, and numbers are arbitrary texts.", "anchors": ["tools/msat.cpp Msat::parse_cmdline", "tools/msat.cpp Msat::scale_if_needed", "tools/msat.cpp Msat::main", "msat/gdal/gdaltranslate.cpp GDALTranslate::translate"]}
{"id": "C104", "title": "Files, links and directories", "statement": "The questions what is at a path (directory, regular file, device, pipe, socket; its time, size and number; whether there is anything) are answered from the file the path leads to, links being followed: yes exactly if it is so, no or the default if there is nothing. The calls for files that may be missing say so exactly if there is nothing at the path and otherwise act: removing removes exactly the one name, a link and not what it leads to; renaming gives the file its new name in place of what had it, and no other name changes; when they do not succeed nothing has changed. The target of a link is read whole, however long. A loop over a directory sees every entry once and leaves no file descriptor open. A program is found in the first directory of PATH that has it. A suffix names a file in the same directory.", "quantifier": "all file systems with any directories and links, all paths, all lengths of targets, all directory contents, all values of PATH", "why_tests_cant": "File systems, paths and chains of links are unbounded; tests only visit a few trees.", "anchors": ["msat/utils/sys.cc stat, isdir, isreg, islnk, timestamp, size, inode, exists, access", "msat/utils/sys.cc Path::fstatat, lstatat, openat_ifexists, readlinkat", "msat/utils/sys.cc Path::iterator", "msat/utils/sys.cc unlink_ifexists, rename_ifexists, which, with_suffix"]}
{"id": "C105", "title": "Saving a dictionary and reading it back", "statement": "A dictionary whose sections, keys and values can be written on a line each and that is saved as an INI file with iniparser_dump_ini gives, when the file is read with iniparser_new, a dictionary with the same sections and the same values for all keys of its sections, whatever the sequence of settings and removals that made it. iniparser_dump writes one line for each key there is, with its value or UNDEF, and nothing else.", "quantifier": "all sequences of iniparser_setstr and iniparser_unset, all keys asked for", "why_tests_cant": "Dictionaries are made by unbounded sequences of operations; positions, collisions and growth of the table change the order of the lines written.", "anchors": ["msat/iniparser.c iniparser_dump_ini", "msat/iniparser.c dictionary_dump, iniparser_dump", "msat/iniparser.c iniparser_new, iniparser_getstring"]}
{"id": "C106", "title": "Computed images are right at every pixel", "statement": "Every pixel of an image computed from another one (cosine of the zenith angle of the sun, zenith angle of the satellite, day of the year, reflectance) has the value for the place on earth of that pixel, for the day and the hour of the image, and, for reflectances, for the counts of the same pixel of its sources; pixels in space have 0. This does not depend on how the image is divided into blocks. The georeferencer gives the same places, gives back the pixel of the place of a pixel, and the nearest pixel of any place. Copying an area of an image gives that area, and copying it with a size gives that size.", "quantifier": "all geotransforms, projections, dates, sizes of images and blocks, all pixels, all counts", "why_tests_cant": "Positions in blocks, lines and columns are easily swapped or off by one in ways that tests on images with one size of block, or with symmetric positions, do not show.", "anchors": ["gdal/reflectance/pixeltolatlon.cpp PixelToLatlon", "gdal/reflectance/cos_sol_za.cpp, sat_za.cpp, jday.cpp, reflectance.cpp IReadBlock", "msat/gdal/dataset.cpp GeoReferencer, recode", "msat/gdal/dataset.h pixelToLatlon, latlonToPixel"]}
{"id": "C107", "title": "Changes made for the time of a scope are undone at its end", "statement": "An object that overrides a resource limit, preserves the times of a file or makes a temporary file undoes its change when its scope is left, whether normally or by an exception, however objects are nested and whatever is done in the scope: all limits are as before, the file has the times it had, the temporary file (whose name did not exist before) is gone and every other name means what it meant; leaving a scope never ends the process. In the scope the limit is the one asked for, or the constructor throws and nothing has changed. Taking a lock answers true exactly if it was obtained, and with retries it never answers false.", "quantifier": "all nestings of scopes, all values and limits, all points where an exception is thrown, all file systems and paths, all sequences of answers of the system", "why_tests_cant": "Exceptions can come at any point and objects can be nested in any order; tests leave a scope in one way.", "anchors": ["msat/utils/sys.cc OverrideRlimit, PreserveFileTimes, Tempfile, File::mkstemp, FileDescriptor::ofd_setlk, ofd_setlkw", "msat/utils/sys.h"]}
{"id": "C108", "title": "Printing the prologue and epilogue records shows their values", "statement": "Writing a record of the prologue or epilogue (satellite status, image acquisition, celestial events, image description, radiometric and geometric processing, IMPF configuration, production statistics, navigation results, radiometric and geometric quality, timeliness and completeness) to a stream after reading it is defined, shows every value of the record exactly once (optional parts when they are there) under words that tell which member it is, and the text tells the values: two objects with the same optional parts and the same text have the same text for every value, hence the same integers, times and named codes. Bars of histograms grow with the counts and fit a line.", "quantifier": "all values of the members of the twelve records, all buffers they are read from, all pairs of objects, all counts of histograms", "why_tests_cant": "There are more than 150000 values in a prologue and an epilogue; a test compares the text of one file, and cannot tell whether two different files may have the same text or which values are never shown.", "anchors": ["msat/hrit/MSG_data.cpp operator<<", "msat/hrit/MSG_data_SatelliteStatus.cpp operator<<", "msat/hrit/MSG_data_ImageAcquisition.cpp operator<<", "msat/hrit/MSG_data_CelestialEvents.cpp operator<<", "msat/hrit/MSG_data_ImageDescription.cpp operator<<", "msat/hrit/MSG_data_RadiometricProc.cpp operator<<", "msat/hrit/MSG_data_GeometricProc.cpp operator<<", "msat/hrit/MSG_data_IMPFConfiguration.cpp operator<<", "msat/hrit/MSG_data_ImageProdStats.cpp operator<<", "msat/hrit/MSG_data_NavigExtrResult.cpp operator<<", "msat/hrit/MSG_data_RadiometricQuality.cpp operator<<, maxistogram", "msat/hrit/MSG_data_GeometricQuality.cpp operator<<", "msat/hrit/MSG_data_TimelinComple.cpp operator<<"]}
{"id": "C109", "title": "Coloured output on terminals", "statement": "Texts written through the terminal helper are unchanged when the stream is not a terminal. On a terminal, what is written after asking for a foreground or a background appears in that colour and brightness, colours asked for last until the end of the innermost scope, and after all scopes have ended the terminal looks as it did at the beginning.", "quantifier": "all sequences of texts and colour scopes, nested to any depth, all colours and flags, all states of the terminal before", "why_tests_cant": "What a sequence of escape codes does depends on the whole history of the terminal; tests compare the bytes of a few texts and do not interpret them.", "anchors": ["msat/utils/term.cc Terminal::Terminal, color, color_fg, color_bg, Restore::~Restore, set_color", "msat/utils/term.h Terminal"]}
{"id": "C110", "title": "Progress messages", "statement": "The handler that writes progress messages to a stream writes one line for each task begun and for each activity, in the order they happen, indented by the number of open tasks, with the amount (n/total) or percentage that was given and nothing when none was given, also when tasks are left by exceptions; without a handler nothing is written.", "quantifier": "all nestings of tasks, all sequences of activities and amounts, all moments at which a handler is set", "why_tests_cant": "The state of the progress singleton is shared by all tasks of a process; tests set a handler first and use one or two nested tasks.", "anchors": ["msat/Progress.cpp Progress::get, setHandler, activity, pushTask, popTask, ProgressTask, StreamProgressHandler", "msat/Progress.h ProgressHandler"]}
{"id": "C111", "title": "Memory of INI dictionaries", "statement": "Whatever is done with an INI dictionary (setting, copying a value that a lookup returned to another entry, removing, looking up, growing), no memory is used after it was released or released twice, releasing the dictionary returns every block that it allocated and no other, blocks of the caller are never changed or released, values are copies of what was given, and the string that a lookup returned stays readable and unchanged until its own entry is set or removed.", "quantifier": "all sequences of operations on a dictionary of any size, all keys and values, all heaps", "why_tests_cant": "Leaks and uses of freed memory depend on the whole history of allocations; a test run under a checker sees only the histories it runs.", "anchors": ["msat/iniparser.c dictionary_new, dictionary_del, dictionary_get, dictionary_set, dictionary_unset, mem_double, xstrdup, iniparser_getstring, iniparser_setstr, iniparser_unset"]}
{"id": "C112", "title": "What exported GRIB messages say", "statement": "A GRIB message made from an image says, in the keys of its edition, the size of the image, how many of its pixels have values, where it is on the grid of the satellite and where the satellite is, its time, its spacecraft, its channel and the wave number of the channel, and the scaled values of its pixels with those that are missing marked. If the GRIB library refuses any value that the export gives it, or the image cannot be described, the export fails and the file that was there is not changed.", "quantifier": "all images, all templates, all GRIB libraries whose keys are independent of one another, each refusing whichever keys it likes, all files that were there, all amounts of space on the disk", "why_tests_cant": "The export makes about fifty calls to a library that may refuse any of them, and the keys of later calls could change what earlier ones said; tests use one library that accepts all of them and read back a few keys.", "anchors": ["gdal/grib/grib.cpp CreateGRIB, CreateGRIB2, CreateGRIB1, CreateGribECMWF, CreateGribMsat, GRIBCreateCopy", "gdal/grib/utils.h Grib::set_long, set_long_oneof, set_double, set_double_array, setTime, new_from_samples, write"]}
{"id": "C113", "title": "Opening GRIB files whatever the library says", "statement": "A file is taken for a GRIB file only if GRIB is among its first bytes. Then, whatever the GRIB library says of the message, opening the file gives either an image or the null pointer; the image has the size, time, satellite, longitude, channel, missing value and geotransform of the message, each from the first of its alternative keys that the message has; its only block has the values of the message, and is refused if there are not as many as pixels. Every handle of the library and every file that was opened is released exactly once: when opening fails, or when the image is closed, and never before.", "quantifier": "all files, all first bytes, all answers of the GRIB library to every look up (value, not found, any other error), and all histories of construction, reading, moving, assignment, release and destruction of the objects that own handles and files", "why_tests_cant": "Tests open a few good messages; they do not have a library that fails at each of the twenty look ups, and they cannot see a handle that is released twice or never.", "anchors": ["gdal/grib/grib.cpp GRIBOpen, GRIBDataset::init, GRIBDataset::GetGeoTransform, GRIBRasterBand::GRIBRasterBand, GRIBRasterBand::IReadBlock", "gdal/grib/utils.h Grib::Grib, ~Grib, operator=, release_handle, new_from_samples, new_from_file, get_long, get_long_ifexists, get_long_oneof, get_double_oneof, formatTime"]}
{"id": "C114", "title": "What msat shows of an image", "statement": "What msat --view writes says everything of the image: its name, size, projection and geotransform, its metadata in the default and in the known domains, and for each band its number, name, size, type, offset, scale, unit, metadata and, if they are known, its statistics; two images for which the same text is written are the same, up to digits of numbers that are not shown. There is exactly one title for each band, in order, and every item of metadata is under the title of its domain.", "quantifier": "all images (any number of bands, any metadata and texts without newlines) and all notations of numbers without blanks and commas", "why_tests_cant": "Tests look for a few lines in what is shown of one image; they cannot say that no two different images look the same, nor what is shown of images without geotransform.", "anchors": ["tools/msat.cpp printDataset, printRasterBand, dumpMetadata, gdalTypeName, known_md_domains"]}
{"id": "C115", "title": "Boxes of points", "statement": "The bounding box of two corners of an image, of a projected area or of an area of the earth is the smallest rectangle with both corners; the corners may be given in any order. A box is said to be set exactly if it is not the one made without arguments. It holds for columns and lines that are of an image of any size.", "quantifier": "all pairs of points: columns and lines of images, projected coordinates, latitudes and longitudes", "why_tests_cant": "Tests try a few boxes of small positive numbers; they cannot say that no box is wider than needed, nor what happens with corners in other orders, with wide boxes, and over the date line.", "anchors": ["msat/gdal/points.h ImageBox::boundingBox, ProjectedBox::boundingBox, MapBox::boundingBox, isNonZero"]}
{"id": "C116", "title": "Opening NetCDF files that any program may have written", "statement": "A file is opened as NetCDF or NetCDF-24 exactly if it is one of those accepted (satellite named and no sampling; edition 1 and levels 55 or 56), and then the image says what the file says: satellite, time, longitude, and for each variable that is an image, in order, its name, type, sign, sizes, channel, unit, offset, scale and missing value, with the known values for attributes that are missing; the geotransform follows from the attributes of the start and of the scale. Nothing in a file is undefined behaviour, and every pixel of every image is what its variable has.", "quantifier": "all files: any attributes of any types, any variables with any dimensions, any data", "why_tests_cant": "Tests open files that were written by the same driver; files of other programs may have any attributes, dimensions and types.", "anchors": ["gdal/netcdf/netcdf.cpp NetCDFOpen, NetCDFDataset::init, GetGeoTransform", "gdal/netcdf/netcdf24.cpp NetCDF24Open, NetCDF24Dataset::init", "gdal/netcdf/utils.cpp NetCDFRasterBand", "gdal/netcdf/utils.h getAttr"]}
{"id": "C117", "title": "The command lines of XRIT2Image and XRIT2NetCDF", "statement": "The options of the programs may be written in every way getopt_long documents; the programs then work on exactly the product that is asked for (directory, resolution, satellite, channel and time), with the format, overlay, scale and window that are said; of several options about the same thing the last counts. Without resolution, satellite, channel or time they end with an error; options for help and version end them without one. An option that does not exist, other words and windows that are not complete are errors.", "quantifier": "all lists of arguments built from any settings in any order and form, all texts of the settings", "why_tests_cant": "The combinations of options, forms, abbreviations and orders are unbounded.", "anchors": ["tools/hrit/XRIT2Image.cpp main", "tools/hrit/XRIT2NetCDF.cpp main"]}
{"id": "C118", "title": "Locks of ranges of files keep threads and processes apart", "statement": "Setting a lock returns true exactly if no other holder has a lock in the way, and then exactly the bytes asked for are locked or unlocked; otherwise it returns false and nothing changes. Asking whether a lock could be had answers the same and changes nothing. Waiting for a lock ends as soon as nothing is in the way any more, or with false only after a signal when it is not to be retried. Whatever threads and processes do, nobody can write what another reads or writes, and closing a file gives up its locks only.", "quantifier": "all tables of locks, all ranges and kinds, all schedules of calls, signals and closes of any number of threads and processes", "why_tests_cant": "The schedules, ranges and holders are unbounded.", "anchors": ["msat/utils/sys.cc FileDescriptor::ofd_setlk, ofd_setlkw, ofd_getlk", "msat/utils/sys.h FileDescriptor"]}
{"id": "C119", "title": "What msat does with the files of its command line", "statement": "msat does with every image that it chooses of the files, in their order, what it was asked for: it shows it, converts it to a file, or makes or displays a picture of each of its bands in a linear scale of greys; with --copymd the names and metadata, and so the names of the files, are those of the template, band by band, and the pixels those of the image. It ends with status 0 exactly if all was done, otherwise with status 1: the files before the one that fails are done and those after it are not looked at. Bands that cannot be read, templates and files that cannot be opened, formats that do not exist and files that cannot be made are errors.", "quantifier": "all lists of files, all datasets and bands, all answers of GDAL and Magick++, all ways of choosing bands and windows", "why_tests_cant": "The files, bands and failures of the libraries are unbounded.", "anchors": ["tools/msat.cpp Msat::main, main", "tools/image.cpp export_image, display_image, imageToMagick"]}
{"id": "C120", "title": "Signals to child processes, the text of their status, waiting with a timeout, and the program executed", "statement": "From the time a child process is started until the program is told that it has terminated, send_signal, terminate and kill send the signal to that child and to no other process, whatever other processes begin and end and whatever numbers are used again; a signal for a child that has not been started, or that is known to have terminated, reaches nobody. format_raw_returncode says how a process has ended: two processes have the same text only if they have ended in the same way. A wait with a timeout leaves the handler of SIGCHLD as it was, and ends as soon as the child terminates. The child executes the program with the arguments and the environment that were given, and a program that could not be executed can be told from one that was.", "quantifier": "all histories of processes, numbers of processes and signals; all statuses; all schedules of the wait; all arguments and environments", "why_tests_cant": "Processes begin and end at any time and their numbers are used again; the schedules of signals are unbounded.", "anchors": ["msat/utils/subprocess.cc Child::send_signal, Child::terminate, Child::kill, Child::fork, Child::format_raw_returncode, enable_sigchld, Child::wait(int), Popen::main"]}
{"id": "C121", "title": "Drivers of meteosatlib in GDAL: registration and which driver opens a file", "statement": "Whatever functions that register drivers a program calls, in any order and any number of times, no two drivers have the same name, those that were there stay before the new ones, and after the plugin is loaded or GDALAllRegister is called with the library preloaded each of the four drivers is found by its name. With the library preloaded the drivers of meteosatlib come before those of GDAL, in the order xRIT, NetCDF, NetCDF-24, GRIB. A file is opened by the first driver that can. Files that no driver of meteosatlib recognises, as NetCDF files without its attributes, are opened exactly as without meteosatlib; those that it recognises are opened by it whatever other drivers there are.", "quantifier": "All sequences of calls, all lists of drivers of GDAL with any functions that open files, all files, GDAL versions where a failure ends the search or not.", "why_tests_cant": "Tests register the drivers once, in one order, with one version of GDAL, and open files of meteosatlib; the drivers of GDAL and the files of other programs are unbounded.", "anchors": ["gdal/msat2gdal.cpp: GDALAllRegister", "gdal/msatgdalplugin.cpp: GDALRegister_Meteosatlib", "gdal/xrit/xrit.cpp: GDALRegister_MsatXRIT", "gdal/netcdf/netcdf.cpp: GDALRegister_MsatNetCDF, NetCDFOpen", "gdal/netcdf/netcdf24.cpp: GDALRegister_MsatNetCDF24, NetCDF24Open", "gdal/grib/grib.cpp: GDALRegister_MsatGRIB"]}
{"id": "C122", "title": "From xRIT files to NetCDF: what is opened is what the files of the product have", "statement": "An xRIT product of Meteosat whose segments, or some of them, are files on disk, in any order, is converted to NetCDF. When the NetCDF file is opened, the satellite and its number, the date and time of the acquisition to the minute, the longitude of the satellite, the size and the channel are those of the product; the middle of the image is the point below the satellite and pixels have the standard size; each sample that the decompression library makes of the data field of each file is at the pixel of its line and column, with 0, that is missing, where there are no samples; solar channels are counts with the scale and offset that make radiances of them, and thermal channels are temperatures in kelvin by the law of Planck, rounded.", "quantifier": "All products with any number of segments of any size that fill the image, any subset and order of files found, all samples of 16 bits, all calibrations, dates, satellites with SEVIRI, channels, windows of HRV.", "why_tests_cant": "The bytes of the files, the subsets of segments and the calibrations are unbounded; a test of one product checks some of its pixels.", "anchors": ["gdal/xrit/dataset.cpp XRITDataset::init", "gdal/xrit/rasterband.cpp XRITRasterBand::init, XRITRasterBand::IReadBlock", "gdal/netcdf/utils.cpp copy_data, rasterBandToNcVar, NetCDFRasterBand::IReadBlock", "gdal/netcdf/netcdf.cpp NetCDFCreateCopy, NetCDFDataset::init", "msat/xrit/dataaccess.cpp DataAccess::scan, DataAccess::line_read", "tools/msat.cpp Msat::main"]}
{"id": "C123", "title": "From the bytes of the prologue and of the segments to the metadata of the image", "statement": "For every prologue written in the documented layout, whatever its fields and whatever follows it, and for all segment files, the image that is opened (and the NetCDF file made of it) takes the date from the planned start of the scan, the pixel size from the step of the reference grid of VIS/IR or of HRV, and the calibration from the slope and the offset of its channel, all at their documented places in the prologue; spacecraft, channel, bits per pixel and longitude are those in the records of the last segment file that was found, whatever the other segments are.", "quantifier": "all values of all members of the prologue, all bytes after it, all lists of segment files with any records, all interpretations of 32 and 64 bit patterns and of the text of the longitude", "why_tests_cant": "The prologue has hundreds of thousands of bytes in nested structures and the header object is shared by all the segments: a test has one prologue and one list of segments, and a field taken from a neighbouring place or from an earlier segment shows only when the values differ.", "anchors": ["gdal/xrit/dataset.cpp: XRITDataset::init", "gdal/xrit/rasterband.cpp: XRITRasterBand::init", "msat/hrit/MSG_data.cpp: MSG_data::read_from", "msat/xrit/dataaccess.cpp: DataAccess::scan", "msat/hrit/MSG_header_image_navig.cpp: MSG_header_image_navig::read_from"]}
{"id": "C124", "title": "From xRIT files to GRIB: what is opened is what the files of the product have", "statement": "An xRIT product of Meteosat whose segments, or some of them, are files on disk, in any order, is converted to GRIB with any of the templates. When the GRIB file is opened, the satellite, the channel, the date and time of the acquisition to the minute, the longitude of the satellite and the size are those of the product; the middle of the image is the point below the satellite and pixels have the standard size; the pixel at the line and column of each sample is the radiance (solar channels) or the temperature by the law of Planck (thermal channels) of its count, as near as packing gives it, and is missing only where there are no samples or the count has no measure.", "quantifier": "All products with any number of segments of any size that fill the image, any subset and order of files found, all samples, calibrations, dates, satellites with SEVIRI, channels, windows of HRV, templates, sample messages and packings.", "why_tests_cant": "The bytes of the files, the subsets of segments and the calibrations are unbounded; a test of one product checks some of its pixels, and a count whose radiance is exactly 0 is not among them.", "anchors": ["gdal/xrit/dataset.cpp: XRITDataset::init", "gdal/xrit/rasterband.cpp: XRITRasterBand::init, XRITRasterBand::IReadBlock", "gdal/grib/grib.cpp: GRIBCreateCopy, GRIBDataset::init, GRIBRasterBand::IReadBlock, CreateGRIB", "gdal/grib/utils.h: Grib::setTime, Grib::formatTime", "msat/xrit/dataaccess.cpp: DataAccess::scan, DataAccess::line_read", "tools/msat.cpp: Msat::main"]}
{"id": "C125", "title": "Converting to GRIB through NetCDF does what converting directly does", "statement": "An xRIT product of Meteosat is converted to NetCDF and that file is converted to GRIB. This does exactly what converting the product to GRIB does, with any template, sample message and packing: it is refused when that is, and when it is not, the opened GRIB file has the same pixels, missing pixels, size, satellite, channel, geotransform, date and time; only the longitude of the satellite is rounded to a float.", "quantifier": "All products with any number of segments of any size that fill the image, any subset and order of files found, all samples of 16 bits, calibrations and tables, dates, satellites with SEVIRI, channels, options, sample messages, packings and files that were there.", "why_tests_cant": "It relates three conversions of the same unbounded input; tests compare the outputs of one conversion with stored values of one product.", "anchors": ["gdal/netcdf/netcdf.cpp: NetCDFCreateCopy, NetCDFDataset::init", "gdal/netcdf/utils.cpp: NetCDFRasterBand", "gdal/grib/grib.cpp: GRIBCreateCopy, CreateGRIB", "gdal/xrit/dataset.cpp: XRITDataset::init", "tools/msat.cpp: Msat::main"]}
{"id": "C126", "title": "From the bytes of xRIT files to GRIB", "statement": "The prologue and the segments of an xRIT product of Meteosat are files of bytes. Converting them to GRIB with any template gives an image with the date of the planned start of the scan that the bytes of the prologue encode, the satellite and channel of the identification record of the last segment, the longitude written in its navigation record, and pixels whose size is the step of the grid encoded in the prologue; the pixel of each sample is the radiance or temperature that the slope and offset encoded in the prologue give for the count that the decompression library makes of the segment.", "quantifier": "All values of the members of the prologue and bytes after it, all headers, subsets and orders of segments, samples, dates, satellites with SEVIRI, channels, windows of HRV, templates, sample messages and packings.", "why_tests_cant": "The bytes are unbounded, and members read at a wrong offset often have plausible values; tests read one prologue.", "anchors": ["msat/hrit/MSG_data_RadiometricProc.cpp: MSG_data_RadiometricProc::read_from", "msat/hrit/MSG_data_ImageDescription.cpp: MSG_data_ImageDescription::read_from", "msat/hrit/MSG_data_ImageAcquisition.cpp: MSG_data_ImageAcquisition::read_from", "gdal/xrit/dataset.cpp: XRITDataset::init", "gdal/grib/grib.cpp: GRIBCreateCopy, CreateGRIB", "tools/msat.cpp: Msat::main"]}
{"id": "C127", "title": "The order in which the segments of an xRIT product are found does not matter", "statement": "The segments of an xRIT product that were found are given to a conversion to NetCDF or GRIB as a list of files. Two lists of the same files, in any order and with any of them more than once, have exactly the same result: the same file, or the same refusal. This holds for any prologue, also one that cannot be read, when the headers of the segments agree on satellite, bits per pixel and projection, as those of one product do.", "quantifier": "All products with any number of segments of any size that fill the image, all lists of the same set of them, all prologues, calibrations, tables, windows of HRV, templates, sample messages and packings.", "why_tests_cant": "The number of orders grows with the factorial of the number of segments, and what the cache of segments holds at each line depends on the order; tests use the order of one directory listing.", "anchors": ["msat/xrit/dataaccess.cpp: DataAccess::scan, DataAccess::line_read", "msat/xrit/fileaccess.cpp: FileAccess", "gdal/xrit/dataset.cpp: XRITDataset::init", "tools/msat.cpp: Msat::main"]}
{"id": "C128", "title": "A segment of an xRIT product that was not found changes its own lines only", "statement": "An xRIT product is converted to NetCDF or GRIB with some of its segments, and again with others, for instance when more have arrived. Both conversions succeed, the two images have the same size, satellite, channel, date, longitude, calibration and missing value, and each line of a segment that was there both times, or neither time, has the same pixels.", "quantifier": "All products with any number of segments of any size that fill the image, all pairs of subsets and orders of segments, all samples, calibrations and tables, dates, satellites with SEVIRI, channels, windows of HRV, templates, sample messages and packings.", "why_tests_cant": "The number of pairs of subsets is exponential in the number of segments; tests convert complete products.", "anchors": ["msat/xrit/dataaccess.cpp: DataAccess::scan, DataAccess::line_read", "gdal/xrit/dataset.cpp: XRITDataset::init", "gdal/xrit/rasterband.cpp: XRITRasterBand::IReadBlock", "gdal/netcdf/netcdf.cpp: NetCDFCreateCopy", "gdal/grib/grib.cpp: GRIBCreateCopy, CreateGRIB"]}
{"id": "C129", "title": "GRIB files converted to NetCDF are the same image", "statement": "If a GRIB file with an image of SEVIRI is converted to NetCDF, then the NetCDF file that is made can be opened and shows the same satellite, date and time, longitude of the satellite, size, place, channel with its name and unit, missing value and pixels, without scale and offset. So if xRIT files are converted to GRIB and the result to NetCDF, the pixels are the radiances or temperatures that the calibration in the prologue gives for the samples.", "quantifier": "all GRIB images of SEVIRI, with all pixels, and all products, segments that were found, counts, calibrations, dates, packings and templates", "why_tests_cant": "The pixels, dates, places and calibrations are too many to try; and what is made by one driver has to suit the other in all of them.", "anchors": ["gdal/grib/grib.cpp: GRIBRasterBand, GRIBDataset, GRIBOpen", "gdal/netcdf/netcdf.cpp: NetCDFCreateCopy", "gdal/netcdf/utils.cpp: rasterBandToNcVar, copy_data", "tools/msat.cpp: main"]}
