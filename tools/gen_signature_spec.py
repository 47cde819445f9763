#!/usr/bin/env python3
"""Transcribe the signatures of the original library from /repo/tests/include/bindings.rs (bindgen output for
lcms2.h) into lean/Verif/Spec/Signatures.lean.  The name of the port's constant is derived from the C name; the
Rust sources are not read."""
import re
SRC = "/repo/tests/include/bindings.rs"
MODULES = [  # C enum, Lean name, suffix dropped from the C name
    ("CurveSeg", "curveSegment", ("CurveSeg", "Curve")), ("ColorSpace", "colorSpace", ("Data",)),
    ("Platform", "platform", ()), ("ProfileClass", "profileClass", ("Class",)), ("Stage", "stage", ()),
    ("Tag", "tag", ("Tag",)), ("TagType", "tagType", ("Type",)), ("Technology", "technology", ())]
text = open(SRC).read()

def words(c):
    c = re.sub(r"^(\d+)color$", r"Color\1", c)
    c = c.replace("2Lab", "ToLab").replace("2XYZ", "ToXYZ").replace("2Float", "ToFloat")
    return c

def entries(enum):
    for m in re.finditer(r"pub const cms%sSignature_cmsSig(\w+): cms%sSignature\s*=\s*(\d+);" % (enum, enum), text):
        yield text.count("\n", 0, m.start()) + 1, m.group(1), int(m.group(2))

print("""/-!
# The signatures of the original library

/repo/tests/include/bindings.rs holds the constants of lcms2.h as bindgen extracted them: plain numbers.  Each row
is the name without underscores of the port's constant, which follows from the C name, the C name, and the number.
Generated by tools/gen_signature_spec.py, which does not read the port's sources.
-/

namespace Lcms.Spec.Original
""")
for enum, lean, suf in MODULES:
    es = list(entries(enum))
    print(f"/-- tests/include/bindings.rs:{es[0][0]}-{es[-1][0]}: `cms{enum}Signature` -/")
    print(f"def {lean} : List (String × String × Nat) := [")
    rows = []
    for _, c, v in es:
        n = c
        for s in suf:
            if n.endswith(s):
                n = n[:-len(s)]
                break
        rows.append(f'  ("{words(n).upper()}", "cmsSig{c}", {v})')
    print(",\n".join(rows) + "]\n")
# The rest are macros, which bindgen left out: the four characters are those of the documents named.
def chars(lean, doc, rows):
    print(f"/-- {doc} -/")
    print(f"def {lean} : List (String × String × Nat) := [")
    print(",\n".join(f'  ("{n}", "{c}", 0x{int.from_bytes(v.encode(), "big"):08x})  /- {v} -/' for n, c, v in rows)
          .replace(")  /-", "),  /-", len(rows) - 1).replace("-/,", "-/") + "]\n")

chars("root", "Macros of lcms2.h; the characters are those the ICC specification assigns, and `lcms` itself.", [
    ("MAGICNUMBER", "cmsMagicNumber", "acsp"), ("LCMSSIGNATURE", "lcmsSignature", "lcms"),
    ("PERCEPTUALREFERENCEMEDIUMGAMUT", "cmsSigPerceptualReferenceMediumGamut", "prmg"),
    ("SCENECOLORIMETRYESTIMATES", "cmsSigSceneColorimetryEstimates", "scoe"),
    ("SCENEAPPEARANCEESTIMATES", "cmsSigSceneAppearanceEstimates", "sape"),
    ("FOCALPLANECOLORIMETRYESTIMATES", "cmsSigFocalPlaneColorimetryEstimates", "fpce"),
    ("REFLECTIONHARDCOPYORIGINALCOLORIMETRY", "cmsSigReflectionHardcopyOriginalColorimetry", "rhoc"),
    ("REFLECTIONPRINTOUTPUTCOLORIMETRY", "cmsSigReflectionPrintOutputColorimetry", "rpoc"),
    ("STATUSA", "cmsSigStatusA", "StaA"), ("STATUSE", "cmsSigStatusE", "StaE"), ("STATUSI", "cmsSigStatusI", "StaI"),
    ("STATUST", "cmsSigStatusT", "StaT"), ("STATUSM", "cmsSigStatusM", "StaM"), ("DN", "cmsSigDN", "DN  "),
    ("DNP", "cmsSigDNP", "DN P"), ("DNN", "cmsSigDNN", "DNN "), ("DNNP", "cmsSigDNNP", "DNNP")])
chars("pluginType", "Macros of lcms2_plugin.h (`cmsPluginMagicNumber`, `cmsPlugin…Sig`); the memory handler, mutex and\n"
      "parallelisation plugins are not ported.", [
    ("MAGIC", "cmsPluginMagicNumber", "acpp"), ("INTERPOLATION", "cmsPluginInterpolationSig", "inpH"),
    ("PARAMETRICCURVE", "cmsPluginParametricCurveSig", "parH"), ("FORMATTERS", "cmsPluginFormattersSig", "frmH"),
    ("TAGTYPE", "cmsPluginTagTypeSig", "typH"), ("TAG", "cmsPluginTagSig", "tagH"),
    ("RENDERINGINTENT", "cmsPluginRenderingIntentSig", "intH"),
    ("MULTIPROCESSELEMENT", "cmsPluginMultiProcessElementSig", "mpeH"),
    ("OPTIMIZATION", "cmsPluginOptimizationSig", "optH"), ("TRANSFORM", "cmsPluginTransformSig", "xfmH")])
print("end Lcms.Spec.Original")
