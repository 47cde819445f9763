/-!
# The signatures of the original library

/repo/tests/include/bindings.rs holds the constants of lcms2.h as bindgen extracted them: plain numbers.  Each row
is the name without underscores of the port's constant, which follows from the C name, the C name, and the number.
Generated by tools/gen_signature_spec.py, which does not read the port's sources.
-/

namespace Lcms.Spec.Original

/-- tests/include/bindings.rs:730-732: `cmsCurveSegSignature` -/
def curveSegment : List (String × String × Nat) := [
  ("FORMULA", "cmsSigFormulaCurveSeg", 1885434470),
  ("SAMPLED", "cmsSigSampledCurveSeg", 1935764838),
  ("SEGMENTED", "cmsSigSegmentedCurve", 1668641382)]

/-- tests/include/bindings.rs:654-696: `cmsColorSpaceSignature` -/
def colorSpace : List (String × String × Nat) := [
  ("XYZ", "cmsSigXYZData", 1482250784),
  ("LAB", "cmsSigLabData", 1281450528),
  ("LUV", "cmsSigLuvData", 1282766368),
  ("YCBCR", "cmsSigYCbCrData", 1497588338),
  ("YXY", "cmsSigYxyData", 1501067552),
  ("RGB", "cmsSigRgbData", 1380401696),
  ("GRAY", "cmsSigGrayData", 1196573017),
  ("HSV", "cmsSigHsvData", 1213421088),
  ("HLS", "cmsSigHlsData", 1212961568),
  ("CMYK", "cmsSigCmykData", 1129142603),
  ("CMY", "cmsSigCmyData", 1129142560),
  ("MCH1", "cmsSigMCH1Data", 1296255025),
  ("MCH2", "cmsSigMCH2Data", 1296255026),
  ("MCH3", "cmsSigMCH3Data", 1296255027),
  ("MCH4", "cmsSigMCH4Data", 1296255028),
  ("MCH5", "cmsSigMCH5Data", 1296255029),
  ("MCH6", "cmsSigMCH6Data", 1296255030),
  ("MCH7", "cmsSigMCH7Data", 1296255031),
  ("MCH8", "cmsSigMCH8Data", 1296255032),
  ("MCH9", "cmsSigMCH9Data", 1296255033),
  ("MCHA", "cmsSigMCHAData", 1296255041),
  ("MCHB", "cmsSigMCHBData", 1296255042),
  ("MCHC", "cmsSigMCHCData", 1296255043),
  ("MCHD", "cmsSigMCHDData", 1296255044),
  ("MCHE", "cmsSigMCHEData", 1296255045),
  ("MCHF", "cmsSigMCHFData", 1296255046),
  ("NAMED", "cmsSigNamedData", 1852662636),
  ("COLOR1", "cmsSig1colorData", 826494034),
  ("COLOR2", "cmsSig2colorData", 843271250),
  ("COLOR3", "cmsSig3colorData", 860048466),
  ("COLOR4", "cmsSig4colorData", 876825682),
  ("COLOR5", "cmsSig5colorData", 893602898),
  ("COLOR6", "cmsSig6colorData", 910380114),
  ("COLOR7", "cmsSig7colorData", 927157330),
  ("COLOR8", "cmsSig8colorData", 943934546),
  ("COLOR9", "cmsSig9colorData", 960711762),
  ("COLOR10", "cmsSig10colorData", 1094929490),
  ("COLOR11", "cmsSig11colorData", 1111706706),
  ("COLOR12", "cmsSig12colorData", 1128483922),
  ("COLOR13", "cmsSig13colorData", 1145261138),
  ("COLOR14", "cmsSig14colorData", 1162038354),
  ("COLOR15", "cmsSig15colorData", 1178815570),
  ("LUVK", "cmsSigLuvKData", 1282766411)]

/-- tests/include/bindings.rs:706-711: `cmsPlatformSignature` -/
def platform : List (String × String × Nat) := [
  ("MACINTOSH", "cmsSigMacintosh", 1095782476),
  ("MICROSOFT", "cmsSigMicrosoft", 1297303124),
  ("SOLARIS", "cmsSigSolaris", 1398099543),
  ("SGI", "cmsSigSGI", 1397180704),
  ("TALIGENT", "cmsSigTaligent", 1413959252),
  ("UNICES", "cmsSigUnices", 711879032)]

/-- tests/include/bindings.rs:698-704: `cmsProfileClassSignature` -/
def profileClass : List (String × String × Nat) := [
  ("INPUT", "cmsSigInputClass", 1935896178),
  ("DISPLAY", "cmsSigDisplayClass", 1835955314),
  ("OUTPUT", "cmsSigOutputClass", 1886549106),
  ("LINK", "cmsSigLinkClass", 1818848875),
  ("ABSTRACT", "cmsSigAbstractClass", 1633842036),
  ("COLORSPACE", "cmsSigColorSpaceClass", 1936744803),
  ("NAMEDCOLOR", "cmsSigNamedColorClass", 1852662636)]

/-- tests/include/bindings.rs:713-728: `cmsStageSignature` -/
def stage : List (String × String × Nat) := [
  ("CURVESETELEMTYPE", "cmsSigCurveSetElemType", 1668707188),
  ("MATRIXELEMTYPE", "cmsSigMatrixElemType", 1835103334),
  ("CLUTELEMTYPE", "cmsSigCLutElemType", 1668052340),
  ("BACSELEMTYPE", "cmsSigBAcsElemType", 1648444243),
  ("EACSELEMTYPE", "cmsSigEAcsElemType", 1698775891),
  ("XYZTOLABELEMTYPE", "cmsSigXYZ2LabElemType", 1815246880),
  ("LABTOXYZELEMTYPE", "cmsSigLab2XYZElemType", 2016570400),
  ("NAMEDCOLORELEMTYPE", "cmsSigNamedColorElemType", 1852009504),
  ("LABV2TOV4", "cmsSigLabV2toV4", 840971296),
  ("LABV4TOV2", "cmsSigLabV4toV2", 874525216),
  ("IDENTITYELEMTYPE", "cmsSigIdentityElemType", 1768189472),
  ("LABTOFLOATPCS", "cmsSigLab2FloatPCS", 1681026080),
  ("FLOATPCSTOLAB", "cmsSigFloatPCS2Lab", 1815241760),
  ("XYZTOFLOATPCS", "cmsSigXYZ2FloatPCS", 1681029152),
  ("FLOATPCSTOXYZ", "cmsSigFloatPCS2XYZ", 2016568352),
  ("CLIPNEGATIVESELEMTYPE", "cmsSigClipNegativesElemType", 1668050976)]

/-- tests/include/bindings.rs:550-620: `cmsTagSignature` -/
def tag : List (String × String × Nat) := [
  ("ATOB0", "cmsSigAToB0Tag", 1093812784),
  ("ATOB1", "cmsSigAToB1Tag", 1093812785),
  ("ATOB2", "cmsSigAToB2Tag", 1093812786),
  ("BLUECOLORANT", "cmsSigBlueColorantTag", 1649957210),
  ("BLUEMATRIXCOLUMN", "cmsSigBlueMatrixColumnTag", 1649957210),
  ("BLUETRC", "cmsSigBlueTRCTag", 1649693251),
  ("BTOA0", "cmsSigBToA0Tag", 1110589744),
  ("BTOA1", "cmsSigBToA1Tag", 1110589745),
  ("BTOA2", "cmsSigBToA2Tag", 1110589746),
  ("CALIBRATIONDATETIME", "cmsSigCalibrationDateTimeTag", 1667329140),
  ("CHARTARGET", "cmsSigCharTargetTag", 1952543335),
  ("CHROMATICADAPTATION", "cmsSigChromaticAdaptationTag", 1667785060),
  ("CHROMATICITY", "cmsSigChromaticityTag", 1667789421),
  ("COLORANTORDER", "cmsSigColorantOrderTag", 1668051567),
  ("COLORANTTABLE", "cmsSigColorantTableTag", 1668051572),
  ("COLORANTTABLEOUT", "cmsSigColorantTableOutTag", 1668050804),
  ("COLORIMETRICINTENTIMAGESTATE", "cmsSigColorimetricIntentImageStateTag", 1667852659),
  ("COPYRIGHT", "cmsSigCopyrightTag", 1668313716),
  ("CRDINFO", "cmsSigCrdInfoTag", 1668441193),
  ("DATA", "cmsSigDataTag", 1684108385),
  ("DATETIME", "cmsSigDateTimeTag", 1685350765),
  ("DEVICEMFGDESC", "cmsSigDeviceMfgDescTag", 1684893284),
  ("DEVICEMODELDESC", "cmsSigDeviceModelDescTag", 1684890724),
  ("DEVICESETTINGS", "cmsSigDeviceSettingsTag", 1684371059),
  ("DTOB0", "cmsSigDToB0Tag", 1144144432),
  ("DTOB1", "cmsSigDToB1Tag", 1144144433),
  ("DTOB2", "cmsSigDToB2Tag", 1144144434),
  ("DTOB3", "cmsSigDToB3Tag", 1144144435),
  ("BTOD0", "cmsSigBToD0Tag", 1110590512),
  ("BTOD1", "cmsSigBToD1Tag", 1110590513),
  ("BTOD2", "cmsSigBToD2Tag", 1110590514),
  ("BTOD3", "cmsSigBToD3Tag", 1110590515),
  ("GAMUT", "cmsSigGamutTag", 1734438260),
  ("GRAYTRC", "cmsSigGrayTRCTag", 1800688195),
  ("GREENCOLORANT", "cmsSigGreenColorantTag", 1733843290),
  ("GREENMATRIXCOLUMN", "cmsSigGreenMatrixColumnTag", 1733843290),
  ("GREENTRC", "cmsSigGreenTRCTag", 1733579331),
  ("LUMINANCE", "cmsSigLuminanceTag", 1819635049),
  ("MEASUREMENT", "cmsSigMeasurementTag", 1835360627),
  ("MEDIABLACKPOINT", "cmsSigMediaBlackPointTag", 1651208308),
  ("MEDIAWHITEPOINT", "cmsSigMediaWhitePointTag", 2004119668),
  ("NAMEDCOLOR", "cmsSigNamedColorTag", 1852010348),
  ("NAMEDCOLOR2", "cmsSigNamedColor2Tag", 1852009522),
  ("OUTPUTRESPONSE", "cmsSigOutputResponseTag", 1919251312),
  ("PERCEPTUALRENDERINGINTENTGAMUT", "cmsSigPerceptualRenderingIntentGamutTag", 1919510320),
  ("PREVIEW0", "cmsSigPreview0Tag", 1886545200),
  ("PREVIEW1", "cmsSigPreview1Tag", 1886545201),
  ("PREVIEW2", "cmsSigPreview2Tag", 1886545202),
  ("PROFILEDESCRIPTION", "cmsSigProfileDescriptionTag", 1684370275),
  ("PROFILEDESCRIPTIONML", "cmsSigProfileDescriptionMLTag", 1685283693),
  ("PROFILESEQUENCEDESC", "cmsSigProfileSequenceDescTag", 1886610801),
  ("PROFILESEQUENCEID", "cmsSigProfileSequenceIdTag", 1886611812),
  ("PS2CRD0", "cmsSigPs2CRD0Tag", 1886610480),
  ("PS2CRD1", "cmsSigPs2CRD1Tag", 1886610481),
  ("PS2CRD2", "cmsSigPs2CRD2Tag", 1886610482),
  ("PS2CRD3", "cmsSigPs2CRD3Tag", 1886610483),
  ("PS2CSA", "cmsSigPs2CSATag", 1886597747),
  ("PS2RENDERINGINTENT", "cmsSigPs2RenderingIntentTag", 1886597737),
  ("REDCOLORANT", "cmsSigRedColorantTag", 1918392666),
  ("REDMATRIXCOLUMN", "cmsSigRedMatrixColumnTag", 1918392666),
  ("REDTRC", "cmsSigRedTRCTag", 1918128707),
  ("SATURATIONRENDERINGINTENTGAMUT", "cmsSigSaturationRenderingIntentGamutTag", 1919510322),
  ("SCREENINGDESC", "cmsSigScreeningDescTag", 1935897188),
  ("SCREENING", "cmsSigScreeningTag", 1935897198),
  ("TECHNOLOGY", "cmsSigTechnologyTag", 1952801640),
  ("UCRBG", "cmsSigUcrBgTag", 1650877472),
  ("VIEWINGCONDDESC", "cmsSigViewingCondDescTag", 1987405156),
  ("VIEWINGCONDITIONS", "cmsSigViewingConditionsTag", 1986618743),
  ("VCGT", "cmsSigVcgtTag", 1986226036),
  ("META", "cmsSigMetaTag", 1835365473),
  ("ARGYLLARTS", "cmsSigArgyllArtsTag", 1634890867)]

/-- tests/include/bindings.rs:513-548: `cmsTagTypeSignature` -/
def tagType : List (String × String × Nat) := [
  ("CHROMATICITY", "cmsSigChromaticityType", 1667789421),
  ("COLORANTORDER", "cmsSigColorantOrderType", 1668051567),
  ("COLORANTTABLE", "cmsSigColorantTableType", 1668051572),
  ("CRDINFO", "cmsSigCrdInfoType", 1668441193),
  ("CURVE", "cmsSigCurveType", 1668641398),
  ("DATA", "cmsSigDataType", 1684108385),
  ("DICT", "cmsSigDictType", 1684628340),
  ("DATETIME", "cmsSigDateTimeType", 1685350765),
  ("DEVICESETTINGS", "cmsSigDeviceSettingsType", 1684371059),
  ("LUT16", "cmsSigLut16Type", 1835430962),
  ("LUT8", "cmsSigLut8Type", 1835430961),
  ("LUTATOB", "cmsSigLutAtoBType", 1832993312),
  ("LUTBTOA", "cmsSigLutBtoAType", 1833058592),
  ("MEASUREMENT", "cmsSigMeasurementType", 1835360627),
  ("MULTILOCALIZEDUNICODE", "cmsSigMultiLocalizedUnicodeType", 1835824483),
  ("MULTIPROCESSELEMENT", "cmsSigMultiProcessElementType", 1836082548),
  ("NAMEDCOLOR", "cmsSigNamedColorType", 1852010348),
  ("NAMEDCOLOR2", "cmsSigNamedColor2Type", 1852009522),
  ("PARAMETRICCURVE", "cmsSigParametricCurveType", 1885434465),
  ("PROFILESEQUENCEDESC", "cmsSigProfileSequenceDescType", 1886610801),
  ("PROFILESEQUENCEID", "cmsSigProfileSequenceIdType", 1886611812),
  ("RESPONSECURVESET16", "cmsSigResponseCurveSet16Type", 1919120178),
  ("S15FIXED16ARRAY", "cmsSigS15Fixed16ArrayType", 1936077618),
  ("SCREENING", "cmsSigScreeningType", 1935897198),
  ("SIGNATURE", "cmsSigSignatureType", 1936287520),
  ("TEXT", "cmsSigTextType", 1952807028),
  ("TEXTDESCRIPTION", "cmsSigTextDescriptionType", 1684370275),
  ("U16FIXED16ARRAY", "cmsSigU16Fixed16ArrayType", 1969632050),
  ("UCRBG", "cmsSigUcrBgType", 1650877472),
  ("UINT16ARRAY", "cmsSigUInt16ArrayType", 1969828150),
  ("UINT32ARRAY", "cmsSigUInt32ArrayType", 1969828658),
  ("UINT64ARRAY", "cmsSigUInt64ArrayType", 1969829428),
  ("UINT8ARRAY", "cmsSigUInt8ArrayType", 1969827896),
  ("VCGT", "cmsSigVcgtType", 1986226036),
  ("VIEWINGCONDITIONS", "cmsSigViewingConditionsType", 1986618743),
  ("XYZ", "cmsSigXYZType", 1482250784)]

/-- tests/include/bindings.rs:622-652: `cmsTechnologySignature` -/
def technology : List (String × String × Nat) := [
  ("DIGITALCAMERA", "cmsSigDigitalCamera", 1684234605),
  ("FILMSCANNER", "cmsSigFilmScanner", 1718838126),
  ("REFLECTIVESCANNER", "cmsSigReflectiveScanner", 1920164718),
  ("INKJETPRINTER", "cmsSigInkJetPrinter", 1768580468),
  ("THERMALWAXPRINTER", "cmsSigThermalWaxPrinter", 1953980792),
  ("ELECTROPHOTOGRAPHICPRINTER", "cmsSigElectrophotographicPrinter", 1701865583),
  ("ELECTROSTATICPRINTER", "cmsSigElectrostaticPrinter", 1702065249),
  ("DYESUBLIMATIONPRINTER", "cmsSigDyeSublimationPrinter", 1685288290),
  ("PHOTOGRAPHICPAPERPRINTER", "cmsSigPhotographicPaperPrinter", 1919969391),
  ("FILMWRITER", "cmsSigFilmWriter", 1718645358),
  ("VIDEOMONITOR", "cmsSigVideoMonitor", 1986618477),
  ("VIDEOCAMERA", "cmsSigVideoCamera", 1986618467),
  ("PROJECTIONTELEVISION", "cmsSigProjectionTelevision", 1886024822),
  ("CRTDISPLAY", "cmsSigCRTDisplay", 1129468960),
  ("PMDISPLAY", "cmsSigPMDisplay", 1347240992),
  ("AMDISPLAY", "cmsSigAMDisplay", 1095582752),
  ("PHOTOCD", "cmsSigPhotoCD", 1263551300),
  ("PHOTOIMAGESETTER", "cmsSigPhotoImageSetter", 1768777587),
  ("GRAVURE", "cmsSigGravure", 1735549302),
  ("OFFSETLITHOGRAPHY", "cmsSigOffsetLithography", 1868981875),
  ("SILKSCREEN", "cmsSigSilkscreen", 1936288875),
  ("FLEXOGRAPHY", "cmsSigFlexography", 1718379896),
  ("MOTIONPICTUREFILMSCANNER", "cmsSigMotionPictureFilmScanner", 1836082803),
  ("MOTIONPICTUREFILMRECORDER", "cmsSigMotionPictureFilmRecorder", 1836082802),
  ("DIGITALMOTIONPICTURECAMERA", "cmsSigDigitalMotionPictureCamera", 1684893795),
  ("DIGITALCINEMAPROJECTOR", "cmsSigDigitalCinemaProjector", 1684236912)]

/-- Macros of lcms2.h; the characters are those the ICC specification assigns, and `lcms` itself. -/
def root : List (String × String × Nat) := [
  ("MAGICNUMBER", "cmsMagicNumber", 0x61637370),  /- acsp -/
  ("LCMSSIGNATURE", "lcmsSignature", 0x6c636d73),  /- lcms -/
  ("PERCEPTUALREFERENCEMEDIUMGAMUT", "cmsSigPerceptualReferenceMediumGamut", 0x70726d67),  /- prmg -/
  ("SCENECOLORIMETRYESTIMATES", "cmsSigSceneColorimetryEstimates", 0x73636f65),  /- scoe -/
  ("SCENEAPPEARANCEESTIMATES", "cmsSigSceneAppearanceEstimates", 0x73617065),  /- sape -/
  ("FOCALPLANECOLORIMETRYESTIMATES", "cmsSigFocalPlaneColorimetryEstimates", 0x66706365),  /- fpce -/
  ("REFLECTIONHARDCOPYORIGINALCOLORIMETRY", "cmsSigReflectionHardcopyOriginalColorimetry", 0x72686f63),  /- rhoc -/
  ("REFLECTIONPRINTOUTPUTCOLORIMETRY", "cmsSigReflectionPrintOutputColorimetry", 0x72706f63),  /- rpoc -/
  ("STATUSA", "cmsSigStatusA", 0x53746141),  /- StaA -/
  ("STATUSE", "cmsSigStatusE", 0x53746145),  /- StaE -/
  ("STATUSI", "cmsSigStatusI", 0x53746149),  /- StaI -/
  ("STATUST", "cmsSigStatusT", 0x53746154),  /- StaT -/
  ("STATUSM", "cmsSigStatusM", 0x5374614d),  /- StaM -/
  ("DN", "cmsSigDN", 0x444e2020),  /- DN   -/
  ("DNP", "cmsSigDNP", 0x444e2050),  /- DN P -/
  ("DNN", "cmsSigDNN", 0x444e4e20),  /- DNN  -/
  ("DNNP", "cmsSigDNNP", 0x444e4e50)  /- DNNP -/]

/-- Macros of lcms2_plugin.h (`cmsPluginMagicNumber`, `cmsPlugin…Sig`); the memory handler, mutex and
parallelisation plugins are not ported. -/
def pluginType : List (String × String × Nat) := [
  ("MAGIC", "cmsPluginMagicNumber", 0x61637070),  /- acpp -/
  ("INTERPOLATION", "cmsPluginInterpolationSig", 0x696e7048),  /- inpH -/
  ("PARAMETRICCURVE", "cmsPluginParametricCurveSig", 0x70617248),  /- parH -/
  ("FORMATTERS", "cmsPluginFormattersSig", 0x66726d48),  /- frmH -/
  ("TAGTYPE", "cmsPluginTagTypeSig", 0x74797048),  /- typH -/
  ("TAG", "cmsPluginTagSig", 0x74616748),  /- tagH -/
  ("RENDERINGINTENT", "cmsPluginRenderingIntentSig", 0x696e7448),  /- intH -/
  ("MULTIPROCESSELEMENT", "cmsPluginMultiProcessElementSig", 0x6d706548),  /- mpeH -/
  ("OPTIMIZATION", "cmsPluginOptimizationSig", 0x6f707448),  /- optH -/
  ("TRANSFORM", "cmsPluginTransformSig", 0x78666d48)  /- xfmH -/]

end Lcms.Spec.Original
