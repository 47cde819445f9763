import Verif.Model.Signature

/-!
# src/types/signatures.rs and src/types/signatures/*.rs

Every signature constant, by module.  Generated by tools/gen_constants.py.
-/

namespace Lcms

namespace Constants

/-- src/types/signatures.rs:6-23,33-41 -/
def root : List (String × Signature) := [
  ("MAGIC_NUMBER", .new #v[0x61, 0x63, 0x73, 0x70]),  /- acsp -/
  ("LCMS_SIGNATURE", .new #v[0x6c, 0x63, 0x6d, 0x73]),  /- lcms -/
  ("PERCEPTUAL_REFERENCE_MEDIUM_GAMUT", .new #v[0x70, 0x72, 0x6d, 0x67]),  /- prmg -/
  ("SCENE_COLORIMETRY_ESTIMATES", .new #v[0x73, 0x63, 0x6f, 0x65]),  /- scoe -/
  ("SCENE_APPEARANCE_ESTIMATES", .new #v[0x73, 0x61, 0x70, 0x65]),  /- sape -/
  ("FOCAL_PLANE_COLORIMETRY_ESTIMATES", .new #v[0x66, 0x70, 0x63, 0x65]),  /- fpce -/
  ("REFLECTION_HARDCOPY_ORIGINAL_COLORIMETRY", .new #v[0x72, 0x68, 0x6f, 0x63]),  /- rhoc -/
  ("REFLECTION_PRINT_OUTPUT_COLORIMETRY", .new #v[0x72, 0x70, 0x6f, 0x63]),  /- rpoc -/
  ("STATUS_A", .new #v[0x53, 0x74, 0x61, 0x41]),  /- StaA -/
  ("STATUS_E", .new #v[0x53, 0x74, 0x61, 0x45]),  /- StaE -/
  ("STATUS_I", .new #v[0x53, 0x74, 0x61, 0x49]),  /- StaI -/
  ("STATUS_T", .new #v[0x53, 0x74, 0x61, 0x54]),  /- StaT -/
  ("STATUS_M", .new #v[0x53, 0x74, 0x61, 0x4d]),  /- StaM -/
  ("DN", .new #v[0x44, 0x4e, 0x20, 0x20]),  /- DN   -/
  ("DNP", .new #v[0x44, 0x4e, 0x20, 0x50]),  /- DN P -/
  ("DNN", .new #v[0x44, 0x4e, 0x4e, 0x20]),  /- DNN  -/
  ("DNNP", .new #v[0x44, 0x4e, 0x4e, 0x50])  /- DNNP -/]

/-- src/types/signatures.rs:26-32 -/
def curveSegment : List (String × Signature) := [
  ("FORMULA", .new #v[0x70, 0x61, 0x72, 0x66]),  /- parf -/
  ("SAMPLED", .new #v[0x73, 0x61, 0x6d, 0x66]),  /- samf -/
  ("SEGMENTED", .new #v[0x63, 0x75, 0x72, 0x66])  /- curf -/]

/-- src/types/signatures/color_space.rs:3-45 -/
def colorSpace : List (String × Signature) := [
  ("XYZ", .new #v[0x58, 0x59, 0x5a, 0x20]),  /- XYZ  -/
  ("LAB", .new #v[0x4c, 0x61, 0x62, 0x20]),  /- Lab  -/
  ("LUV", .new #v[0x4c, 0x75, 0x76, 0x20]),  /- Luv  -/
  ("YCBCR", .new #v[0x59, 0x43, 0x62, 0x72]),  /- YCbr -/
  ("YXY", .new #v[0x59, 0x78, 0x79, 0x20]),  /- Yxy  -/
  ("RGB", .new #v[0x52, 0x47, 0x42, 0x20]),  /- RGB  -/
  ("GRAY", .new #v[0x47, 0x52, 0x41, 0x59]),  /- GRAY -/
  ("HSV", .new #v[0x48, 0x53, 0x56, 0x20]),  /- HSV  -/
  ("HLS", .new #v[0x48, 0x4c, 0x53, 0x20]),  /- HLS  -/
  ("CMYK", .new #v[0x43, 0x4d, 0x59, 0x4b]),  /- CMYK -/
  ("CMY", .new #v[0x43, 0x4d, 0x59, 0x20]),  /- CMY  -/
  ("MCH1", .new #v[0x4d, 0x43, 0x48, 0x31]),  /- MCH1 -/
  ("MCH2", .new #v[0x4d, 0x43, 0x48, 0x32]),  /- MCH2 -/
  ("MCH3", .new #v[0x4d, 0x43, 0x48, 0x33]),  /- MCH3 -/
  ("MCH4", .new #v[0x4d, 0x43, 0x48, 0x34]),  /- MCH4 -/
  ("MCH5", .new #v[0x4d, 0x43, 0x48, 0x35]),  /- MCH5 -/
  ("MCH6", .new #v[0x4d, 0x43, 0x48, 0x36]),  /- MCH6 -/
  ("MCH7", .new #v[0x4d, 0x43, 0x48, 0x37]),  /- MCH7 -/
  ("MCH8", .new #v[0x4d, 0x43, 0x48, 0x38]),  /- MCH8 -/
  ("MCH9", .new #v[0x4d, 0x43, 0x48, 0x39]),  /- MCH9 -/
  ("MCHA", .new #v[0x4d, 0x43, 0x48, 0x41]),  /- MCHA -/
  ("MCHB", .new #v[0x4d, 0x43, 0x48, 0x42]),  /- MCHB -/
  ("MCHC", .new #v[0x4d, 0x43, 0x48, 0x43]),  /- MCHC -/
  ("MCHD", .new #v[0x4d, 0x43, 0x48, 0x44]),  /- MCHD -/
  ("MCHE", .new #v[0x4d, 0x43, 0x48, 0x45]),  /- MCHE -/
  ("MCHF", .new #v[0x4d, 0x43, 0x48, 0x46]),  /- MCHF -/
  ("NAMED", .new #v[0x6e, 0x6d, 0x63, 0x6c]),  /- nmcl -/
  ("COLOR1", .new #v[0x31, 0x43, 0x4c, 0x52]),  /- 1CLR -/
  ("COLOR2", .new #v[0x32, 0x43, 0x4c, 0x52]),  /- 2CLR -/
  ("COLOR3", .new #v[0x33, 0x43, 0x4c, 0x52]),  /- 3CLR -/
  ("COLOR4", .new #v[0x34, 0x43, 0x4c, 0x52]),  /- 4CLR -/
  ("COLOR5", .new #v[0x35, 0x43, 0x4c, 0x52]),  /- 5CLR -/
  ("COLOR6", .new #v[0x36, 0x43, 0x4c, 0x52]),  /- 6CLR -/
  ("COLOR7", .new #v[0x37, 0x43, 0x4c, 0x52]),  /- 7CLR -/
  ("COLOR8", .new #v[0x38, 0x43, 0x4c, 0x52]),  /- 8CLR -/
  ("COLOR9", .new #v[0x39, 0x43, 0x4c, 0x52]),  /- 9CLR -/
  ("COLOR10", .new #v[0x41, 0x43, 0x4c, 0x52]),  /- ACLR -/
  ("COLOR11", .new #v[0x42, 0x43, 0x4c, 0x52]),  /- BCLR -/
  ("COLOR12", .new #v[0x43, 0x43, 0x4c, 0x52]),  /- CCLR -/
  ("COLOR13", .new #v[0x44, 0x43, 0x4c, 0x52]),  /- DCLR -/
  ("COLOR14", .new #v[0x45, 0x43, 0x4c, 0x52]),  /- ECLR -/
  ("COLOR15", .new #v[0x46, 0x43, 0x4c, 0x52]),  /- FCLR -/
  ("LUVK", .new #v[0x4c, 0x75, 0x76, 0x4b])  /- LuvK -/]

/-- src/types/signatures/platform.rs:3-8 -/
def platform : List (String × Signature) := [
  ("MACINTOSH", .new #v[0x41, 0x50, 0x50, 0x4c]),  /- APPL -/
  ("MICROSOFT", .new #v[0x4d, 0x53, 0x46, 0x54]),  /- MSFT -/
  ("SOLARIS", .new #v[0x53, 0x55, 0x4e, 0x57]),  /- SUNW -/
  ("SGI", .new #v[0x53, 0x47, 0x49, 0x20]),  /- SGI  -/
  ("TALIGENT", .new #v[0x54, 0x47, 0x4e, 0x54]),  /- TGNT -/
  ("UNICES", .new #v[0x2a, 0x6e, 0x69, 0x78])  /- *nix -/]

/-- src/types/signatures/plugin_type.rs:3-12 -/
def pluginType : List (String × Signature) := [
  ("MAGIC", .new #v[0x61, 0x63, 0x70, 0x70]),  /- acpp -/
  ("TRANSFORM", .new #v[0x78, 0x66, 0x6d, 0x48]),  /- xfmH -/
  ("INTERPOLATION", .new #v[0x69, 0x6e, 0x70, 0x48]),  /- inpH -/
  ("TAG_TYPE", .new #v[0x74, 0x79, 0x70, 0x48]),  /- typH -/
  ("TAG", .new #v[0x74, 0x61, 0x67, 0x48]),  /- tagH -/
  ("FORMATTERS", .new #v[0x66, 0x72, 0x6d, 0x48]),  /- frmH -/
  ("RENDERING_INTENT", .new #v[0x69, 0x6e, 0x74, 0x48]),  /- intH -/
  ("PARAMETRIC_CURVE", .new #v[0x70, 0x61, 0x72, 0x48]),  /- parH -/
  ("MULTI_PROCESS_ELEMENT", .new #v[0x6d, 0x70, 0x65, 0x48]),  /- mpeH -/
  ("OPTIMIZATION", .new #v[0x6f, 0x70, 0x74, 0x48])  /- optH -/]

/-- src/types/signatures/profile_class.rs:3-9 -/
def profileClass : List (String × Signature) := [
  ("INPUT", .new #v[0x73, 0x63, 0x6e, 0x72]),  /- scnr -/
  ("DISPLAY", .new #v[0x6d, 0x6e, 0x74, 0x72]),  /- mntr -/
  ("OUTPUT", .new #v[0x70, 0x72, 0x74, 0x72]),  /- prtr -/
  ("LINK", .new #v[0x6c, 0x69, 0x6e, 0x6b]),  /- link -/
  ("ABSTRACT", .new #v[0x61, 0x62, 0x73, 0x74]),  /- abst -/
  ("COLOR_SPACE", .new #v[0x73, 0x70, 0x61, 0x63]),  /- spac -/
  ("NAMED_COLOR", .new #v[0x6e, 0x6d, 0x63, 0x6c])  /- nmcl -/]

/-- src/types/signatures/stage.rs:3-25 -/
def stage : List (String × Signature) := [
  ("CURVE_SET_ELEM_TYPE", .new #v[0x63, 0x76, 0x73, 0x74]),  /- cvst -/
  ("MATRIX_ELEM_TYPE", .new #v[0x6d, 0x61, 0x74, 0x66]),  /- matf -/
  ("C_LUT_ELEM_TYPE", .new #v[0x63, 0x6c, 0x75, 0x74]),  /- clut -/
  ("B_ACS_ELEM_TYPE", .new #v[0x62, 0x41, 0x43, 0x53]),  /- bACS -/
  ("E_ACS_ELEM_TYPE", .new #v[0x65, 0x41, 0x43, 0x53]),  /- eACS -/
  ("XYZ_TO_LAB_ELEM_TYPE", .new #v[0x6c, 0x32, 0x78, 0x20]),  /- l2x  -/
  ("LAB_TO_XYZ_ELEM_TYPE", .new #v[0x78, 0x32, 0x6c, 0x20]),  /- x2l  -/
  ("NAMED_COLOR_ELEM_TYPE", .new #v[0x6e, 0x63, 0x6c, 0x20]),  /- ncl  -/
  ("LAB_V2_TO_V4", .new #v[0x32, 0x20, 0x34, 0x20]),  /- 2 4  -/
  ("LAB_V4_TO_V2", .new #v[0x34, 0x20, 0x32, 0x20]),  /- 4 2  -/
  ("IDENTITY_ELEM_TYPE", .new #v[0x69, 0x64, 0x6e, 0x20]),  /- idn  -/
  ("LAB_TO_FLOAT_PCS", .new #v[0x64, 0x32, 0x6c, 0x20]),  /- d2l  -/
  ("FLOAT_PCS_TO_LAB", .new #v[0x6c, 0x32, 0x64, 0x20]),  /- l2d  -/
  ("XYZ_TO_FLOAT_PCS", .new #v[0x64, 0x32, 0x78, 0x20]),  /- d2x  -/
  ("FLOAT_PCS_TO_XYZ", .new #v[0x78, 0x32, 0x64, 0x20]),  /- x2d  -/
  ("CLIP_NEGATIVES_ELEM_TYPE", .new #v[0x63, 0x6c, 0x70, 0x20])  /- clp  -/]

/-- src/types/signatures/tag.rs:3-73 -/
def tag : List (String × Signature) := [
  ("A_TO_B0", .new #v[0x41, 0x32, 0x42, 0x30]),  /- A2B0 -/
  ("A_TO_B1", .new #v[0x41, 0x32, 0x42, 0x31]),  /- A2B1 -/
  ("A_TO_B2", .new #v[0x41, 0x32, 0x42, 0x32]),  /- A2B2 -/
  ("BLUE_COLORANT", .new #v[0x62, 0x58, 0x59, 0x5a]),  /- bXYZ -/
  ("BLUE_MATRIX_COLUMN", .new #v[0x62, 0x58, 0x59, 0x5a]),  /- bXYZ -/
  ("BLUE_TRC", .new #v[0x62, 0x54, 0x52, 0x43]),  /- bTRC -/
  ("B_TO_A0", .new #v[0x42, 0x32, 0x41, 0x30]),  /- B2A0 -/
  ("B_TO_A1", .new #v[0x42, 0x32, 0x41, 0x31]),  /- B2A1 -/
  ("B_TO_A2", .new #v[0x42, 0x32, 0x41, 0x32]),  /- B2A2 -/
  ("CALIBRATION_DATE_TIME", .new #v[0x63, 0x61, 0x6c, 0x74]),  /- calt -/
  ("CHAR_TARGET", .new #v[0x74, 0x61, 0x72, 0x67]),  /- targ -/
  ("CHROMATIC_ADAPTATION", .new #v[0x63, 0x68, 0x61, 0x64]),  /- chad -/
  ("CHROMATICITY", .new #v[0x63, 0x68, 0x72, 0x6d]),  /- chrm -/
  ("COLORANT_ORDER", .new #v[0x63, 0x6c, 0x72, 0x6f]),  /- clro -/
  ("COLORANT_TABLE", .new #v[0x63, 0x6c, 0x72, 0x74]),  /- clrt -/
  ("COLORANT_TABLE_OUT", .new #v[0x63, 0x6c, 0x6f, 0x74]),  /- clot -/
  ("COLORIMETRIC_INTENT_IMAGE_STATE", .new #v[0x63, 0x69, 0x69, 0x73]),  /- ciis -/
  ("COPYRIGHT", .new #v[0x63, 0x70, 0x72, 0x74]),  /- cprt -/
  ("CRD_INFO", .new #v[0x63, 0x72, 0x64, 0x69]),  /- crdi -/
  ("DATA", .new #v[0x64, 0x61, 0x74, 0x61]),  /- data -/
  ("DATE_TIME", .new #v[0x64, 0x74, 0x69, 0x6d]),  /- dtim -/
  ("DEVICE_MFG_DESC", .new #v[0x64, 0x6d, 0x6e, 0x64]),  /- dmnd -/
  ("DEVICE_MODEL_DESC", .new #v[0x64, 0x6d, 0x64, 0x64]),  /- dmdd -/
  ("DEVICE_SETTINGS", .new #v[0x64, 0x65, 0x76, 0x73]),  /- devs -/
  ("D_TO_B0", .new #v[0x44, 0x32, 0x42, 0x30]),  /- D2B0 -/
  ("D_TO_B1", .new #v[0x44, 0x32, 0x42, 0x31]),  /- D2B1 -/
  ("D_TO_B2", .new #v[0x44, 0x32, 0x42, 0x32]),  /- D2B2 -/
  ("D_TO_B3", .new #v[0x44, 0x32, 0x42, 0x33]),  /- D2B3 -/
  ("B_TO_D0", .new #v[0x42, 0x32, 0x44, 0x30]),  /- B2D0 -/
  ("B_TO_D1", .new #v[0x42, 0x32, 0x44, 0x31]),  /- B2D1 -/
  ("B_TO_D2", .new #v[0x42, 0x32, 0x44, 0x32]),  /- B2D2 -/
  ("B_TO_D3", .new #v[0x42, 0x32, 0x44, 0x33]),  /- B2D3 -/
  ("GAMUT", .new #v[0x67, 0x61, 0x6d, 0x74]),  /- gamt -/
  ("GRAY_TRC", .new #v[0x6b, 0x54, 0x52, 0x43]),  /- kTRC -/
  ("GREEN_COLORANT", .new #v[0x67, 0x58, 0x59, 0x5a]),  /- gXYZ -/
  ("GREEN_MATRIX_COLUMN", .new #v[0x67, 0x58, 0x59, 0x5a]),  /- gXYZ -/
  ("GREEN_TRC", .new #v[0x67, 0x54, 0x52, 0x43]),  /- gTRC -/
  ("LUMINANCE", .new #v[0x6c, 0x75, 0x6d, 0x69]),  /- lumi -/
  ("MEASUREMENT", .new #v[0x6d, 0x65, 0x61, 0x73]),  /- meas -/
  ("MEDIA_BLACK_POINT", .new #v[0x62, 0x6b, 0x70, 0x74]),  /- bkpt -/
  ("MEDIA_WHITE_POINT", .new #v[0x77, 0x74, 0x70, 0x74]),  /- wtpt -/
  ("NAMED_COLOR", .new #v[0x6e, 0x63, 0x6f, 0x6c]),  /- ncol -/
  ("NAMED_COLOR2", .new #v[0x6e, 0x63, 0x6c, 0x32]),  /- ncl2 -/
  ("OUTPUT_RESPONSE", .new #v[0x72, 0x65, 0x73, 0x70]),  /- resp -/
  ("PERCEPTUAL_RENDERING_INTENT_GAMUT", .new #v[0x72, 0x69, 0x67, 0x30]),  /- rig0 -/
  ("PREVIEW0", .new #v[0x70, 0x72, 0x65, 0x30]),  /- pre0 -/
  ("PREVIEW1", .new #v[0x70, 0x72, 0x65, 0x31]),  /- pre1 -/
  ("PREVIEW2", .new #v[0x70, 0x72, 0x65, 0x32]),  /- pre2 -/
  ("PROFILE_DESCRIPTION", .new #v[0x64, 0x65, 0x73, 0x63]),  /- desc -/
  ("PROFILE_DESCRIPTION_ML", .new #v[0x64, 0x73, 0x63, 0x6d]),  /- dscm -/
  ("PROFILE_SEQUENCE_DESC", .new #v[0x70, 0x73, 0x65, 0x71]),  /- pseq -/
  ("PROFILE_SEQUENCE_ID", .new #v[0x70, 0x73, 0x69, 0x64]),  /- psid -/
  ("PS2_CRD0", .new #v[0x70, 0x73, 0x64, 0x30]),  /- psd0 -/
  ("PS2_CRD1", .new #v[0x70, 0x73, 0x64, 0x31]),  /- psd1 -/
  ("PS2_CRD2", .new #v[0x70, 0x73, 0x64, 0x32]),  /- psd2 -/
  ("PS2_CRD3", .new #v[0x70, 0x73, 0x64, 0x33]),  /- psd3 -/
  ("PS2_CSA", .new #v[0x70, 0x73, 0x32, 0x73]),  /- ps2s -/
  ("PS2_RENDERING_INTENT", .new #v[0x70, 0x73, 0x32, 0x69]),  /- ps2i -/
  ("RED_COLORANT", .new #v[0x72, 0x58, 0x59, 0x5a]),  /- rXYZ -/
  ("RED_MATRIX_COLUMN", .new #v[0x72, 0x58, 0x59, 0x5a]),  /- rXYZ -/
  ("RED_TRC", .new #v[0x72, 0x54, 0x52, 0x43]),  /- rTRC -/
  ("SATURATION_RENDERING_INTENT_GAMUT", .new #v[0x72, 0x69, 0x67, 0x32]),  /- rig2 -/
  ("SCREENING_DESC", .new #v[0x73, 0x63, 0x72, 0x64]),  /- scrd -/
  ("SCREENING", .new #v[0x73, 0x63, 0x72, 0x6e]),  /- scrn -/
  ("TECHNOLOGY", .new #v[0x74, 0x65, 0x63, 0x68]),  /- tech -/
  ("UCR_BG", .new #v[0x62, 0x66, 0x64, 0x20]),  /- bfd  -/
  ("VIEWING_COND_DESC", .new #v[0x76, 0x75, 0x65, 0x64]),  /- vued -/
  ("VIEWING_CONDITIONS", .new #v[0x76, 0x69, 0x65, 0x77]),  /- view -/
  ("VCGT", .new #v[0x76, 0x63, 0x67, 0x74]),  /- vcgt -/
  ("META", .new #v[0x6d, 0x65, 0x74, 0x61]),  /- meta -/
  ("ARGYLL_ARTS", .new #v[0x61, 0x72, 0x74, 0x73])  /- arts -/]

/-- src/types/signatures/tag_type.rs:5-78 -/
def tagType : List (String × Signature) := [
  ("CHROMATICITY", .new #v[0x63, 0x68, 0x72, 0x6d]),  /- chrm -/
  ("COLORANT_ORDER", .new #v[0x63, 0x6c, 0x72, 0x6f]),  /- clro -/
  ("COLORANT_TABLE", .new #v[0x63, 0x6c, 0x72, 0x74]),  /- clrt -/
  ("CRD_INFO", .new #v[0x63, 0x72, 0x64, 0x69]),  /- crdi -/
  ("CURVE", .new #v[0x63, 0x75, 0x72, 0x76]),  /- curv -/
  ("DATA", .new #v[0x64, 0x61, 0x74, 0x61]),  /- data -/
  ("DICT", .new #v[0x64, 0x69, 0x63, 0x74]),  /- dict -/
  ("DATE_TIME", .new #v[0x64, 0x74, 0x69, 0x6d]),  /- dtim -/
  ("DEVICE_SETTINGS", .new #v[0x64, 0x65, 0x76, 0x73]),  /- devs -/
  ("LUT16", .new #v[0x6d, 0x66, 0x74, 0x32]),  /- mft2 -/
  ("LUT8", .new #v[0x6d, 0x66, 0x74, 0x31]),  /- mft1 -/
  ("LUTA_TO_B", .new #v[0x6d, 0x41, 0x42, 0x20]),  /- mAB  -/
  ("LUTB_TO_A", .new #v[0x6d, 0x42, 0x41, 0x20]),  /- mBA  -/
  ("MEASUREMENT", .new #v[0x6d, 0x65, 0x61, 0x73]),  /- meas -/
  ("MULTI_LOCALIZED_UNICODE", .new #v[0x6d, 0x6c, 0x75, 0x63]),  /- mluc -/
  ("MULTI_PROCESS_ELEMENT", .new #v[0x6d, 0x70, 0x65, 0x74]),  /- mpet -/
  ("NAMED_COLOR", .new #v[0x6e, 0x63, 0x6f, 0x6c]),  /- ncol -/
  ("NAMED_COLOR2", .new #v[0x6e, 0x63, 0x6c, 0x32]),  /- ncl2 -/
  ("PARAMETRIC_CURVE", .new #v[0x70, 0x61, 0x72, 0x61]),  /- para -/
  ("PROFILE_SEQUENCE_DESC", .new #v[0x70, 0x73, 0x65, 0x71]),  /- pseq -/
  ("PROFILE_SEQUENCE_ID", .new #v[0x70, 0x73, 0x69, 0x64]),  /- psid -/
  ("RESPONSE_CURVE_SET16", .new #v[0x72, 0x63, 0x73, 0x32]),  /- rcs2 -/
  ("S15_FIXED16_ARRAY", .new #v[0x73, 0x66, 0x33, 0x32]),  /- sf32 -/
  ("SCREENING", .new #v[0x73, 0x63, 0x72, 0x6e]),  /- scrn -/
  ("SIGNATURE", .new #v[0x73, 0x69, 0x67, 0x20]),  /- sig  -/
  ("TEXT", .new #v[0x74, 0x65, 0x78, 0x74]),  /- text -/
  ("TEXT_DESCRIPTION", .new #v[0x64, 0x65, 0x73, 0x63]),  /- desc -/
  ("U16_FIXED16_ARRAY", .new #v[0x75, 0x66, 0x33, 0x32]),  /- uf32 -/
  ("UCR_BG", .new #v[0x62, 0x66, 0x64, 0x20]),  /- bfd  -/
  ("UINT16_ARRAY", .new #v[0x75, 0x69, 0x31, 0x36]),  /- ui16 -/
  ("UINT32_ARRAY", .new #v[0x75, 0x69, 0x33, 0x32]),  /- ui32 -/
  ("UINT64_ARRAY", .new #v[0x75, 0x69, 0x36, 0x34]),  /- ui64 -/
  ("UINT8_ARRAY", .new #v[0x75, 0x69, 0x30, 0x38]),  /- ui08 -/
  ("VCGT", .new #v[0x76, 0x63, 0x67, 0x74]),  /- vcgt -/
  ("VIEWING_CONDITIONS", .new #v[0x76, 0x69, 0x65, 0x77]),  /- view -/
  ("XYZ", .new #v[0x58, 0x59, 0x5a, 0x20])  /- XYZ  -/]

/-- src/types/signatures/technology.rs:3-28 -/
def technology : List (String × Signature) := [
  ("DIGITAL_CAMERA", .new #v[0x64, 0x63, 0x61, 0x6d]),  /- dcam -/
  ("FILM_SCANNER", .new #v[0x66, 0x73, 0x63, 0x6e]),  /- fscn -/
  ("REFLECTIVE_SCANNER", .new #v[0x72, 0x73, 0x63, 0x6e]),  /- rscn -/
  ("INKJET_PRINTER", .new #v[0x69, 0x6a, 0x65, 0x74]),  /- ijet -/
  ("THERMAL_WAX_PRINTER", .new #v[0x74, 0x77, 0x61, 0x78]),  /- twax -/
  ("ELECTROPHOTOGRAPHIC_PRINTER", .new #v[0x65, 0x70, 0x68, 0x6f]),  /- epho -/
  ("ELECTROSTATIC_PRINTER", .new #v[0x65, 0x73, 0x74, 0x61]),  /- esta -/
  ("DYE_SUBLIMATION_PRINTER", .new #v[0x64, 0x73, 0x75, 0x62]),  /- dsub -/
  ("PHOTOGRAPHIC_PAPER_PRINTER", .new #v[0x72, 0x70, 0x68, 0x6f]),  /- rpho -/
  ("FILM_WRITER", .new #v[0x66, 0x70, 0x72, 0x6e]),  /- fprn -/
  ("VIDEO_MONITOR", .new #v[0x76, 0x69, 0x64, 0x6d]),  /- vidm -/
  ("VIDEO_CAMERA", .new #v[0x76, 0x69, 0x64, 0x63]),  /- vidc -/
  ("PROJECTION_TELEVISION", .new #v[0x70, 0x6a, 0x74, 0x76]),  /- pjtv -/
  ("CRT_DISPLAY", .new #v[0x43, 0x52, 0x54, 0x20]),  /- CRT  -/
  ("PM_DISPLAY", .new #v[0x50, 0x4d, 0x44, 0x20]),  /- PMD  -/
  ("AM_DISPLAY", .new #v[0x41, 0x4d, 0x44, 0x20]),  /- AMD  -/
  ("PHOTO_CD", .new #v[0x4b, 0x50, 0x43, 0x44]),  /- KPCD -/
  ("PHOTO_IMAGE_SETTER", .new #v[0x69, 0x6d, 0x67, 0x73]),  /- imgs -/
  ("GRAVURE", .new #v[0x67, 0x72, 0x61, 0x76]),  /- grav -/
  ("OFFSET_LITHOGRAPHY", .new #v[0x6f, 0x66, 0x66, 0x73]),  /- offs -/
  ("SILKSCREEN", .new #v[0x73, 0x69, 0x6c, 0x6b]),  /- silk -/
  ("FLEXOGRAPHY", .new #v[0x66, 0x6c, 0x65, 0x78]),  /- flex -/
  ("MOTION_PICTURE_FILM_SCANNER", .new #v[0x6d, 0x70, 0x66, 0x73]),  /- mpfs -/
  ("MOTION_PICTURE_FILM_RECORDER", .new #v[0x6d, 0x70, 0x66, 0x72]),  /- mpfr -/
  ("DIGITAL_MOTION_PICTURE_CAMERA", .new #v[0x64, 0x6d, 0x70, 0x63]),  /- dmpc -/
  ("DIGITAL_CINEMA_PROJECTOR", .new #v[0x64, 0x63, 0x70, 0x6a])  /- dcpj -/]

/-- All modules (src/types/signatures.rs:6-41). -/
def all : List (List (String × Signature)) :=
  [root, curveSegment, colorSpace, platform, pluginType, profileClass, stage, tag, tagType, technology]

end Constants

end Lcms
