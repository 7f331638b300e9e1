/-
  Glyph lists of pdfreader/codecs/agl.py and zapfdingbatsgl.py. Generated by tools/gentables.py.
-/
import Verif.Model.Glyphs

namespace PdfReader

/-- Part of `AGL`, codecs/agl.py. -/
def aglTree0 : GlyphTree :=
  .node (.node (.node (.node (.node (.node (.node .nil k!"A" [0x0041] .nil) k!"B" [0x0042] .nil) k!"C" [0x0043] (.node .nil k!"D" [0x0044] .nil)) k!"E" [0x0045] (.node (.node .nil k!"F" [0x0046] .nil) k!"G" [0x0047] (.node .nil k!"H" [0x0048] .nil))) k!"I" [0x0049] (.node (.node (.node .nil k!"J" [0x004A] .nil) k!"K" [0x004B] (.node .nil k!"L" [0x004C] .nil)) k!"M" [0x004D] (.node (.node .nil k!"N" [0x004E] .nil) k!"O" [0x004F] (.node .nil k!"P" [0x0050] .nil)))) k!"Q" [0x0051] (.node (.node (.node (.node (.node .nil k!"R" [0x0052] .nil) k!"S" [0x0053] .nil) k!"T" [0x0054] (.node .nil k!"U" [0x0055] .nil)) k!"V" [0x0056] (.node (.node .nil k!"W" [0x0057] .nil) k!"X" [0x0058] (.node .nil k!"Y" [0x0059] .nil))) k!"Z" [0x005A] (.node (.node (.node .nil k!"a" [0x0061] .nil) k!"b" [0x0062] (.node .nil k!"c" [0x0063] .nil)) k!"d" [0x0064] (.node (.node .nil k!"e" [0x0065] .nil) k!"f" [0x0066] (.node .nil k!"g" [0x0067] .nil))))) k!"h" [0x0068] (.node (.node (.node (.node (.node (.node .nil k!"i" [0x0069] .nil) k!"j" [0x006A] .nil) k!"k" [0x006B] (.node .nil k!"l" [0x006C] .nil)) k!"m" [0x006D] (.node (.node .nil k!"n" [0x006E] .nil) k!"o" [0x006F] (.node .nil k!"p" [0x0070] .nil))) k!"q" [0x0071] (.node (.node (.node .nil k!"r" [0x0072] .nil) k!"s" [0x0073] (.node .nil k!"t" [0x0074] .nil)) k!"u" [0x0075] (.node (.node .nil k!"v" [0x0076] .nil) k!"w" [0x0077] (.node .nil k!"x" [0x0078] .nil)))) k!"y" [0x0079] (.node (.node (.node (.node .nil k!"z" [0x007A] .nil) k!"AE" [0x00C6] (.node .nil k!"DZ" [0x01F1] .nil)) k!"Dz" [0x01F2] (.node (.node .nil k!"IJ" [0x0132] .nil) k!"LJ" [0x01C7] (.node .nil k!"LL" [0xF6BF] .nil))) k!"Lj" [0x01C8] (.node (.node (.node .nil k!"Mu" [0x039C] .nil) k!"NJ" [0x01CA] (.node .nil k!"Nj" [0x01CB] .nil)) k!"Nu" [0x039D] (.node (.node .nil k!"OE" [0x0152] .nil) k!"Oi" [0x01A2] (.node .nil k!"Pi" [0x03A0] .nil)))))

/-- Part of `AGL`, codecs/agl.py. -/
def aglTree1 : GlyphTree :=
  .node (.node (.node (.node (.node (.node (.node .nil k!"ae" [0x00E6] .nil) k!"at" [0x0040] .nil) k!"dz" [0x01F3] (.node .nil k!"ff" [0xFB00] .nil)) k!"fi" [0xFB01] (.node (.node .nil k!"fl" [0xFB02] .nil) k!"he" [0x05D4] (.node .nil k!"hv" [0x0195] .nil))) k!"ij" [0x0133] (.node (.node (.node .nil k!"lj" [0x01C9] .nil) k!"ll" [0xF6C0] (.node .nil k!"mu" [0x00B5] .nil)) k!"nj" [0x01CC] (.node (.node .nil k!"nu" [0x03BD] .nil) k!"oe" [0x0153] (.node .nil k!"oi" [0x01A3] .nil)))) k!"pe" [0x05E4] (.node (.node (.node (.node (.node .nil k!"pi" [0x03C0] .nil) k!"ts" [0x02A6] .nil) k!"xi" [0x03BE] (.node .nil k!"yr" [0x01A6] .nil)) k!"Chi" [0x03A7] (.node (.node .nil k!"Eng" [0x014A] .nil) k!"Esh" [0x01A9] (.node .nil k!"Eta" [0x0397] .nil))) k!"Eth" [0x00D0] (.node (.node (.node .nil k!"Ezh" [0x01B7] .nil) k!"Ohm" [0x2126] (.node .nil k!"Phi" [0x03A6] .nil)) k!"Psi" [0x03A8] (.node (.node .nil k!"Rho" [0x03A1] .nil) k!"Tau" [0x03A4] (.node .nil k!"arc" [0x2312] .nil))))) k!"bar" [0x007C] (.node (.node (.node (.node (.node (.node .nil k!"bet" [0x05D1] .nil) k!"chi" [0x03C7] .nil) k!"eng" [0x014B] (.node .nil k!"esh" [0x0283] .nil)) k!"eta" [0x03B7] (.node (.node .nil k!"eth" [0x00F0] .nil) k!"ezh" [0x0292] (.node .nil k!"ffi" [0xFB03] .nil))) k!"ffl" [0xFB04] (.node (.node (.node .nil k!"het" [0x05D7] .nil) k!"jis" [0x3004] (.node .nil k!"kaf" [0x05DB] .nil)) k!"mem" [0x05DE] (.node (.node .nil k!"mu1" [0x00B5] .nil) k!"nun" [0x05E0] (.node .nil k!"one" [0x0031] .nil)))) k!"phi" [0x03C6] (.node (.node (.node (.node .nil k!"psi" [0x03C8] .nil) k!"qof" [0x05E7] (.node .nil k!"rho" [0x03C1] .nil)) k!"six" [0x0036] (.node (.node .nil k!"sun" [0x263C] .nil) k!"tau" [0x03C4] (.node .nil k!"tav" [0x05EA] .nil))) k!"tet" [0x05D8] (.node (.node (.node .nil k!"two" [0x0032] .nil) k!"vav" [0x05D5] (.node .nil k!"won" [0x20A9] .nil)) k!"yen" [0x00A5] (.node (.node .nil k!"yod" [0x05D9] .nil) k!"Beta" [0x0392] (.node .nil k!"Cdot" [0x010A] .nil)))))

/-- Part of `AGL`, codecs/agl.py. -/
def aglTree2 : GlyphTree :=
  .node (.node (.node (.node (.node (.node (.node .nil k!"Euro" [0x20AC] .nil) k!"Gdot" [0x0120] .nil) k!"Hbar" [0x0126] (.node .nil k!"Idot" [0x0130] .nil)) k!"Iota" [0x0399] (.node (.node .nil k!"Ldot" [0x013F] .nil) k!"Tbar" [0x0166] (.node .nil k!"Zdot" [0x017B] .nil))) k!"Zeta" [0x0396] (.node (.node (.node .nil k!"alef" [0x05D0] .nil) k!"ayin" [0x05E2] (.node .nil k!"beta" [0x03B2] .nil)) k!"cdot" [0x010B] (.node (.node .nil k!"cent" [0x00A2] .nil) k!"club" [0x2663] (.node .nil k!"dezh" [0x02A4] .nil)))) k!"dong" [0x20AB] (.node (.node (.node (.node (.node .nil k!"edot" [0x0117] .nil) k!"euro" [0x20AC] .nil) k!"five" [0x0035] (.node .nil k!"four" [0x0034] .nil)) k!"gdot" [0x0121] (.node (.node .nil k!"hbar" [0x0127] .nil) k!"ilde" [0x02DC] (.node .nil k!"iota" [0x03B9] .nil))) k!"lbar" [0x019A] (.node (.node (.node .nil k!"ldot" [0x0140] .nil) k!"less" [0x003C] (.node .nil k!"lezh" [0x026E] .nil)) k!"lira" [0x20A4] (.node (.node .nil k!"male" [0x2642] .nil) k!"mars" [0x2642] (.node .nil k!"nine" [0x0039] .nil))))) k!"phi1" [0x03D5] (.node (.node (.node (.node (.node (.node .nil k!"plus" [0x002B] .nil) k!"rafe" [0x05BF] .nil) k!"resh" [0x05E8] (.node .nil k!"ring" [0x02DA] .nil)) k!"shin" [0x05E9] (.node (.node .nil k!"tbar" [0x0167] .nil) k!"tesh" [0x02A7] (.node .nil k!"ubar" [0x0289] .nil))) k!"wynn" [0x01BF] (.node (.node (.node .nil k!"zdot" [0x017C] .nil) k!"zero" [0x0030] (.node .nil k!"zeta" [0x03B6] .nil)) k!"Acute" [0xF6C9] (.node (.node .nil k!"Alpha" [0x0391] .nil) k!"Aring" [0x00C5] (.node .nil k!"Bhook" [0x0181] .nil)))) k!"Caron" [0xF6CA] (.node (.node (.node (.node .nil k!"Chook" [0x0187] .nil) k!"Delta" [0x2206] (.node .nil k!"Dhook" [0x018A] .nil)) k!"Eopen" [0x0190] (.node (.node .nil k!"Fhook" [0x0191] .nil) k!"Gamma" [0x0393] (.node .nil k!"Ghook" [0x0193] .nil))) k!"Grave" [0xF6CE] (.node (.node (.node .nil k!"Kappa" [0x039A] .nil) k!"Khook" [0x0198] (.node .nil k!"Ohorn" [0x01A0] .nil)) k!"Omega" [0x2126] (.node (.node .nil k!"Oopen" [0x0186] .nil) k!"Phook" [0x01A4] (.node .nil k!"Schwa" [0x018F] .nil)))))

/-- Part of `AGL`, codecs/agl.py. -/
def aglTree3 : GlyphTree :=
  .node (.node (.node (.node (.node (.node (.node .nil k!"Theta" [0x0398] .nil) k!"Thook" [0x01AC] .nil) k!"Thorn" [0x00DE] (.node .nil k!"Uhorn" [0x01AF] .nil)) k!"Uring" [0x016E] (.node (.node .nil k!"Vhook" [0x01B2] .nil) k!"Yhook" [0x01B3] (.node .nil k!"acute" [0x00B4] .nil))) k!"adeva" [0x0905] (.node (.node (.node .nil k!"aleph" [0x2135] .nil) k!"alpha" [0x03B1] (.node .nil k!"angle" [0x2220] .nil)) k!"apple" [0xF8FF] (.node (.node .nil k!"aring" [0x00E5] .nil) k!"bhook" [0x0253] (.node .nil k!"blank" [0x2423] .nil)))) k!"block" [0x2588] (.node (.node (.node (.node (.node .nil k!"breve" [0x02D8] .nil) k!"caron" [0x02C7] .nil) k!"ccurl" [0x0255] (.node .nil k!"chook" [0x0188] .nil)) k!"clear" [0x2327] (.node (.node .nil k!"colon" [0x003A] .nil) k!"comma" [0x002C] (.node .nil k!"dalet" [0x05D3] .nil))) k!"danda" [0x0964] (.node (.node (.node .nil k!"delta" [0x03B4] .nil) k!"dhook" [0x0257] (.node .nil k!"dtail" [0x0256] .nil)) k!"earth" [0x2641] (.node (.node .nil k!"edeva" [0x090F] .nil) k!"eight" [0x0038] (.node .nil k!"eopen" [0x025B] .nil))))) k!"equal" [0x003D] (.node (.node (.node (.node (.node (.node .nil k!"franc" [0x20A3] .nil) k!"gamma" [0x03B3] .nil) k!"ghook" [0x0260] (.node .nil k!"gimel" [0x05D2] .nil)) k!"grave" [0x0060] (.node (.node .nil k!"heart" [0x2665] .nil) k!"hhook" [0x0266] (.node .nil k!"hiriq" [0x05B4] .nil))) k!"holam" [0x05B9] (.node (.node (.node .nil k!"house" [0x2302] .nil) k!"ideva" [0x0907] (.node .nil k!"kappa" [0x03BA] .nil)) k!"khook" [0x0199] (.node (.node .nil k!"lamed" [0x05DC] .nil) k!"lbelt" [0x026C] (.node .nil k!"longs" [0x017F] .nil)))) k!"mhook" [0x0271] (.node (.node (.node (.node .nil k!"minus" [0x2212] .nil) k!"nabla" [0x2207] (.node .nil k!"odeva" [0x0913] .nil)) k!"ohorn" [0x01A1] (.node (.node .nil k!"omega" [0x03C9] .nil) k!"oopen" [0x0254] (.node .nil k!"patah" [0x05B7] .nil))) k!"phook" [0x01A5] (.node (.node (.node .nil k!"qhook" [0x02A0] .nil) k!"ratio" [0x2236] (.node .nil k!"rhook" [0x027D] .nil)) k!"schwa" [0x0259] (.node (.node .nil k!"segol" [0x05B6] .nil) k!"seven" [0x0037] (.node .nil k!"shade" [0x2592] .nil)))))

/-- Part of `AGL`, codecs/agl.py. -/
def aglTree4 : GlyphTree :=
  .node (.node (.node (.node (.node (.node (.node .nil k!"shook" [0x0282] .nil) k!"sigma" [0x03C3] .nil) k!"slash" [0x002F] (.node .nil k!"slong" [0x017F] .nil)) k!"space" [0x0020] (.node (.node .nil k!"spade" [0x2660] .nil) k!"theta" [0x03B8] (.node .nil k!"thook" [0x01AD] .nil))) k!"thorn" [0x00FE] (.node (.node (.node .nil k!"three" [0x0033] .nil) k!"tilde" [0x02DC] (.node .nil k!"tonos" [0x0384] .nil)) k!"tsadi" [0x05E6] (.node (.node .nil k!"tsere" [0x05B5] .nil) k!"udeva" [0x0909] (.node .nil k!"uhorn" [0x01B0] .nil)))) k!"union" [0x222A] (.node (.node (.node (.node (.node .nil k!"uring" [0x016F] .nil) k!"venus" [0x2640] .nil) k!"vhook" [0x028B] (.node .nil k!"wring" [0x1E98] .nil)) k!"yhook" [0x01B4] (.node (.node .nil k!"yring" [0x1E99] .nil) k!"zayin" [0x05D6] (.node .nil k!"zcurl" [0x0291] .nil))) k!"Aacute" [0x00C1] (.node (.node (.node .nil k!"Abreve" [0x0102] .nil) k!"Acaron" [0x01CD] (.node .nil k!"Agrave" [0x00C0] .nil)) k!"Asmall" [0xF761] (.node (.node .nil k!"Atilde" [0x00C3] .nil) k!"Bsmall" [0xF762] (.node .nil k!"Cacute" [0x0106] .nil))))) k!"Ccaron" [0x010C] (.node (.node (.node (.node (.node (.node .nil k!"Csmall" [0xF763] .nil) k!"Dcaron" [0x010E] .nil) k!"Dcroat" [0x0110] (.node .nil k!"Dslash" [0x0110] .nil)) k!"Dsmall" [0xF764] (.node (.node .nil k!"Eacute" [0x00C9] .nil) k!"Ebreve" [0x0114] (.node .nil k!"Ecaron" [0x011A] .nil))) k!"Egrave" [0x00C8] (.node (.node (.node .nil k!"Esmall" [0xF765] .nil) k!"Etilde" [0x1EBC] (.node .nil k!"Fsmall" [0xF766] .nil)) k!"Gacute" [0x01F4] (.node (.node .nil k!"Gbreve" [0x011E] .nil) k!"Gcaron" [0x01E6] (.node .nil k!"Gsmall" [0xF767] .nil)))) k!"H18533" [0x25CF] (.node (.node (.node (.node .nil k!"H18543" [0x25AA] .nil) k!"H18551" [0x25AB] (.node .nil k!"H22073" [0x25A1] .nil)) k!"Hsmall" [0xF768] (.node (.node .nil k!"Iacute" [0x00CD] .nil) k!"Ibreve" [0x012C] (.node .nil k!"Icaron" [0x01CF] .nil))) k!"Igrave" [0x00CC] (.node (.node (.node .nil k!"Ismall" [0xF769] .nil) k!"Itilde" [0x0128] (.node .nil k!"Jsmall" [0xF76A] .nil)) k!"Kacute" [0x1E30] (.node (.node .nil k!"Kcaron" [0x01E8] .nil) k!"Ksmall" [0xF76B] (.node .nil k!"Lacute" [0x0139] .nil)))))

/-- Part of `AGL`, codecs/agl.py. -/
def aglTree5 : GlyphTree :=
  .node (.node (.node (.node (.node (.node (.node .nil k!"Lcaron" [0x013D] .nil) k!"Lslash" [0x0141] .nil) k!"Lsmall" [0xF76C] (.node .nil k!"Macron" [0xF6D0] .nil)) k!"Macute" [0x1E3E] (.node (.node .nil k!"Msmall" [0xF76D] .nil) k!"Nacute" [0x0143] (.node .nil k!"Ncaron" [0x0147] .nil))) k!"Nsmall" [0xF76E] (.node (.node (.node .nil k!"Ntilde" [0x00D1] .nil) k!"Oacute" [0x00D3] (.node .nil k!"Obreve" [0x014E] .nil)) k!"Ocaron" [0x01D1] (.node (.node .nil k!"Ograve" [0x00D2] .nil) k!"Oslash" [0x00D8] (.node .nil k!"Osmall" [0xF76F] .nil)))) k!"Otilde" [0x00D5] (.node (.node (.node (.node (.node .nil k!"Pacute" [0x1E54] .nil) k!"Psmall" [0xF770] .nil) k!"Qsmall" [0xF771] (.node .nil k!"Racute" [0x0154] .nil)) k!"Rcaron" [0x0158] (.node (.node .nil k!"Rsmall" [0xF772] .nil) k!"Sacute" [0x015A] (.node .nil k!"Scaron" [0x0160] .nil))) k!"Ssmall" [0xF773] (.node (.node (.node .nil k!"Tcaron" [0x0164] .nil) k!"Tsmall" [0xF774] (.node .nil k!"Uacute" [0x00DA] .nil)) k!"Ubreve" [0x016C] (.node (.node .nil k!"Ucaron" [0x01D3] .nil) k!"Ugrave" [0x00D9] (.node .nil k!"Usmall" [0xF775] .nil))))) k!"Utilde" [0x0168] (.node (.node (.node (.node (.node (.node .nil k!"Vsmall" [0xF776] .nil) k!"Vtilde" [0x1E7C] .nil) k!"Wacute" [0x1E82] (.node .nil k!"Wgrave" [0x1E80] .nil)) k!"Wsmall" [0xF777] (.node (.node .nil k!"Xsmall" [0xF778] .nil) k!"Yacute" [0x00DD] (.node .nil k!"Ygrave" [0x1EF2] .nil))) k!"Ysmall" [0xF779] (.node (.node (.node .nil k!"Ytilde" [0x1EF8] .nil) k!"Zacute" [0x0179] (.node .nil k!"Zcaron" [0x017D] .nil)) k!"Zsmall" [0xF77A] (.node (.node .nil k!"aacute" [0x00E1] .nil) k!"aadeva" [0x0906] (.node .nil k!"abreve" [0x0103] .nil)))) k!"acaron" [0x01CE] (.node (.node (.node (.node .nil k!"agrave" [0x00E0] .nil) k!"aideva" [0x0910] (.node .nil k!"aparen" [0x249C] .nil)) k!"atilde" [0x00E3] (.node (.node .nil k!"audeva" [0x0914] .nil) k!"badeva" [0x092C] (.node .nil k!"bparen" [0x249D] .nil))) k!"bullet" [0x2022] (.node (.node (.node .nil k!"cacute" [0x0107] .nil) k!"cadeva" [0x091A] (.node .nil k!"careof" [0x2105] .nil)) k!"ccaron" [0x010D] (.node (.node .nil k!"circle" [0x25CB] .nil) k!"cparen" [0x249E] (.node .nil k!"dadeva" [0x0926] .nil)))))

/-- Part of `AGL`, codecs/agl.py. -/
def aglTree6 : GlyphTree :=
  .node (.node (.node (.node (.node (.node (.node .nil k!"dagger" [0x2020] .nil) k!"dcaron" [0x010F] .nil) k!"dcroat" [0x0111] (.node .nil k!"degree" [0x00B0] .nil)) k!"divide" [0x00F7] (.node (.node .nil k!"dollar" [0x0024] .nil) k!"dparen" [0x249F] (.node .nil k!"dzcurl" [0x02A5] .nil))) k!"eacute" [0x00E9] (.node (.node (.node .nil k!"ebreve" [0x0115] .nil) k!"ecaron" [0x011B] (.node .nil k!"egrave" [0x00E8] .nil)) k!"emdash" [0x2014] (.node (.node .nil k!"endash" [0x2013] .nil) k!"eparen" [0x24A0] (.node .nil k!"etilde" [0x1EBD] .nil)))) k!"exclam" [0x0021] (.node (.node (.node (.node (.node .nil k!"fadeva" [0x095E] .nil) k!"female" [0x2640] .nil) k!"florin" [0x0192] (.node .nil k!"forall" [0x2200] .nil)) k!"fparen" [0x24A1] (.node (.node .nil k!"gacute" [0x01F5] .nil) k!"gadeva" [0x0917] (.node .nil k!"gbreve" [0x011F] .nil))) k!"gcaron" [0x01E7] (.node (.node (.node .nil k!"gparen" [0x24A2] .nil) k!"hadeva" [0x0939] (.node .nil k!"hparen" [0x24A3] .nil)) k!"hyphen" [0x002D] (.node (.node .nil k!"iacute" [0x00ED] .nil) k!"ibreve" [0x012D] (.node .nil k!"icaron" [0x01D0] .nil))))) k!"igrave" [0x00EC] (.node (.node (.node (.node (.node (.node .nil k!"iideva" [0x0908] .nil) k!"iparen" [0x24A4] .nil) k!"itilde" [0x0129] (.node .nil k!"jadeva" [0x091C] .nil)) k!"jcaron" [0x01F0] (.node (.node .nil k!"jparen" [0x24A5] .nil) k!"kacute" [0x1E31] (.node .nil k!"kadeva" [0x0915] .nil))) k!"kcaron" [0x01E9] (.node (.node (.node .nil k!"kparen" [0x24A6] .nil) k!"lacute" [0x013A] (.node .nil k!"ladeva" [0x0932] .nil)) k!"lambda" [0x03BB] (.node (.node .nil k!"lcaron" [0x013E] .nil) k!"lparen" [0x24A7] (.node .nil k!"lslash" [0x0142] .nil)))) k!"luthai" [0x0E26] (.node (.node (.node (.node .nil k!"macron" [0x00AF] .nil) k!"macute" [0x1E3F] (.node .nil k!"madeva" [0x092E] .nil)) k!"middot" [0x00B7] (.node (.node .nil k!"minute" [0x2032] .nil) k!"mparen" [0x24A8] (.node .nil k!"nacute" [0x0144] .nil))) k!"nadeva" [0x0928] (.node (.node (.node .nil k!"ncaron" [0x0148] .nil) k!"nparen" [0x24A9] (.node .nil k!"ntilde" [0x00F1] .nil)) k!"numero" [0x2116] (.node (.node .nil k!"oacute" [0x00F3] .nil) k!"obreve" [0x014F] (.node .nil k!"ocaron" [0x01D2] .nil)))))

/-- Part of `AGL`, codecs/agl.py. -/
def aglTree7 : GlyphTree :=
  .node (.node (.node (.node (.node (.node (.node .nil k!"ograve" [0x00F2] .nil) k!"omdeva" [0x0950] .nil) k!"omega1" [0x03D6] (.node .nil k!"oparen" [0x24AA] .nil)) k!"option" [0x2325] (.node (.node .nil k!"oslash" [0x00F8] .nil) k!"otilde" [0x00F5] (.node .nil k!"pacute" [0x1E55] .nil))) k!"padeva" [0x092A] (.node (.node (.node .nil k!"pageup" [0x21DE] .nil) k!"period" [0x002E] (.node .nil k!"peseta" [0x20A7] .nil)) k!"pparen" [0x24AB] (.node (.node .nil k!"qadeva" [0x0958] .nil) k!"qamats" [0x05B8] (.node .nil k!"qparen" [0x24AC] .nil)))) k!"qubuts" [0x05BB] (.node (.node (.node (.node (.node .nil k!"racute" [0x0155] .nil) k!"radeva" [0x0930] .nil) k!"rcaron" [0x0159] (.node .nil k!"rparen" [0x24AD] .nil)) k!"rupiah" [0xF6DD] (.node (.node .nil k!"ruthai" [0x0E24] .nil) k!"sacute" [0x015B] (.node .nil k!"sadeva" [0x0938] .nil))) k!"samekh" [0x05E1] (.node (.node (.node .nil k!"scaron" [0x0161] .nil) k!"second" [0x2033] (.node .nil k!"sheqel" [0x20AA] .nil)) k!"sigma1" [0x03C2] (.node (.node .nil k!"sparen" [0x24AE] .nil) k!"subset" [0x2282] (.node .nil k!"tadeva" [0x0924] .nil))))) k!"tcaron" [0x0165] (.node (.node (.node (.node (.node (.node .nil k!"tccurl" [0x02A8] .nil) k!"theta1" [0x03D1] .nil) k!"tparen" [0x24AF] (.node .nil k!"uacute" [0x00FA] .nil)) k!"ubreve" [0x016D] (.node (.node .nil k!"ucaron" [0x01D4] .nil) k!"ugrave" [0x00F9] (.node .nil k!"uparen" [0x24B0] .nil))) k!"utilde" [0x0169] (.node (.node (.node .nil k!"uudeva" [0x090A] .nil) k!"vadeva" [0x0935] (.node .nil k!"vparen" [0x24B1] .nil)) k!"vtilde" [0x1E7D] (.node (.node .nil k!"wacute" [0x1E83] .nil) k!"wgrave" [0x1E81] (.node .nil k!"wparen" [0x24B2] .nil)))) k!"xparen" [0x24B3] (.node (.node (.node (.node .nil k!"yacute" [0x00FD] .nil) k!"yadeva" [0x092F] (.node .nil k!"ygrave" [0x1EF3] .nil)) k!"yparen" [0x24B4] (.node (.node .nil k!"ytilde" [0x1EF9] .nil) k!"zacute" [0x017A] (.node .nil k!"zadeva" [0x095B] .nil))) k!"zcaron" [0x017E] (.node (.node (.node .nil k!"zparen" [0x24B5] .nil) k!"AEacute" [0x01FC] (.node .nil k!"AEsmall" [0xF7E6] .nil)) k!"Acircle" [0x24B6] (.node (.node .nil k!"Amacron" [0x0100] .nil) k!"Aogonek" [0x0104] (.node .nil k!"Bcircle" [0x24B7] .nil)))))

/-- Part of `AGL`, codecs/agl.py. -/
def aglTree8 : GlyphTree :=
  .node (.node (.node (.node (.node (.node (.node .nil k!"Ccircle" [0x24B8] .nil) k!"DZcaron" [0x01C4] .nil) k!"Dcircle" [0x24B9] (.node .nil k!"Dtopbar" [0x018B] .nil)) k!"Dzcaron" [0x01C5] (.node (.node .nil k!"Ecircle" [0x24BA] .nil) k!"Emacron" [0x0112] (.node .nil k!"Eogonek" [0x0118] .nil))) k!"Epsilon" [0x0395] (.node (.node (.node .nil k!"Fcircle" [0x24BB] .nil) k!"Gcircle" [0x24BC] (.node .nil k!"Gmacron" [0x1E20] .nil)) k!"Gstroke" [0x01E4] (.node (.node .nil k!"Hcircle" [0x24BD] .nil) k!"Icircle" [0x24BE] (.node .nil k!"Imacron" [0x012A] .nil)))) k!"Iogonek" [0x012E] (.node (.node (.node (.node (.node .nil k!"Istroke" [0x0197] .nil) k!"Jcircle" [0x24BF] .nil) k!"Kcircle" [0x24C0] (.node .nil k!"Lcircle" [0x24C1] .nil)) k!"Mcircle" [0x24C2] (.node (.node .nil k!"Mturned" [0x019C] .nil) k!"Ncircle" [0x24C3] (.node .nil k!"OEsmall" [0xF6FA] .nil))) k!"Ocircle" [0x24C4] (.node (.node (.node .nil k!"Omacron" [0x014C] .nil) k!"Omicron" [0x039F] (.node .nil k!"Oogonek" [0x01EA] .nil)) k!"Pcircle" [0x24C5] (.node (.node .nil k!"Qcircle" [0x24C6] .nil) k!"Rcircle" [0x24C7] (.node .nil k!"Scircle" [0x24C8] .nil))))) k!"Tcircle" [0x24C9] (.node (.node (.node (.node (.node (.node .nil k!"Tonesix" [0x0184] .nil) k!"Tonetwo" [0x01A7] .nil) k!"Ucircle" [0x24CA] (.node .nil k!"Umacron" [0x016A] .nil)) k!"Uogonek" [0x0172] (.node (.node .nil k!"Upsilon" [0x03A5] .nil) k!"Vcircle" [0x24CB] (.node .nil k!"Wcircle" [0x24CC] .nil))) k!"Xcircle" [0x24CD] (.node (.node (.node .nil k!"Ycircle" [0x24CE] .nil) k!"Zcircle" [0x24CF] (.node .nil k!"Zstroke" [0x01B5] .nil)) k!"acircle" [0x24D0] (.node (.node .nil k!"aeacute" [0x01FD] .nil) k!"afii299" [0x200E] (.node .nil k!"afii300" [0x200F] .nil)))) k!"afii301" [0x200D] (.node (.node (.node (.node .nil k!"akorean" [0x314F] .nil) k!"amacron" [0x0101] (.node .nil k!"aogonek" [0x0105] .nil)) k!"arrowup" [0x2191] (.node (.node .nil k!"ascript" [0x0251] .nil) k!"atsmall" [0xFE6B] (.node .nil k!"aturned" [0x0250] .nil))) k!"bcircle" [0x24D1] (.node (.node (.node .nil k!"because" [0x2235] .nil) k!"bhadeva" [0x092D] (.node .nil k!"braceex" [0xF8F4] .nil)) k!"bstroke" [0x0180] (.node (.node .nil k!"btopbar" [0x0183] .nil) k!"ccircle" [0x24D2] (.node .nil k!"cedilla" [0x00B8] .nil)))))

/-- Part of `AGL`, codecs/agl.py. -/
def aglTree9 : GlyphTree :=
  .node (.node (.node (.node (.node (.node (.node .nil k!"compass" [0x263C] .nil) k!"control" [0x2303] .nil) k!"curlyor" [0x22CE] (.node .nil k!"cyrFlex" [0xF6D2] .nil)) k!"cyrflex" [0xF6D5] (.node (.node .nil k!"dcircle" [0x24D3] .nil) k!"ddadeva" [0x0921] (.node .nil k!"dhadeva" [0x0927] .nil))) k!"diamond" [0x2666] (.node (.node (.node .nil k!"divides" [0x2223] .nil) k!"dkshade" [0x2593] (.node .nil k!"dmacron" [0x0111] .nil)) k!"dnblock" [0x2584] (.node (.node .nil k!"dotmath" [0x22C5] .nil) k!"dtopbar" [0x018C] (.node .nil k!"dzcaron" [0x01C6] .nil)))) k!"ecircle" [0x24D4] (.node (.node (.node (.node (.node .nil k!"ekorean" [0x3154] .nil) k!"element" [0x2208] .nil) k!"emacron" [0x0113] (.node .nil k!"enspace" [0x2002] .nil)) k!"eogonek" [0x0119] (.node (.node .nil k!"epsilon" [0x03B5] .nil) k!"eshcurl" [0x0286] (.node .nil k!"eturned" [0x01DD] .nil))) k!"ezhcurl" [0x0293] (.node (.node (.node .nil k!"ezhtail" [0x01BA] .nil) k!"fcircle" [0x24D5] (.node .nil k!"finalpe" [0x05E3] .nil)) k!"fisheye" [0x25C9] (.node (.node .nil k!"gcircle" [0x24D6] .nil) k!"ghadeva" [0x0918] (.node .nil k!"gmacron" [0x1E21] .nil))))) k!"greater" [0x003E] (.node (.node (.node (.node (.node (.node .nil k!"gscript" [0x0261] .nil) k!"gstroke" [0x01E5] .nil) k!"hcircle" [0x24D7] (.node .nil k!"hiriq14" [0x05B4] .nil)) k!"hiriq21" [0x05B4] (.node (.node .nil k!"hiriq2d" [0x05B4] .nil) k!"holam19" [0x05B9] (.node .nil k!"holam26" [0x05B9] .nil))) k!"holam32" [0x05B9] (.node (.node (.node .nil k!"hookcmb" [0x0309] .nil) k!"horncmb" [0x031B] (.node .nil k!"hturned" [0x0265] .nil)) k!"icircle" [0x24D8] (.node (.node .nil k!"ikorean" [0x3163] .nil) k!"imacron" [0x012B] (.node .nil k!"iogonek" [0x012F] .nil)))) k!"istroke" [0x0268] (.node (.node (.node (.node .nil k!"jcircle" [0x24D9] .nil) k!"jhadeva" [0x091D] (.node .nil k!"kcircle" [0x24DA] .nil)) k!"khadeva" [0x0916] (.node (.node .nil k!"kturned" [0x029E] .nil) k!"lcircle" [0x24DB] (.node .nil k!"lfblock" [0x258C] .nil))) k!"lladeva" [0x0933] (.node (.node (.node .nil k!"lozenge" [0x25CA] .nil) k!"lsquare" [0x2113] (.node .nil k!"ltshade" [0x2591] .nil)) k!"mcircle" [0x24DC] (.node (.node .nil k!"mturned" [0x026F] .nil) k!"mugreek" [0x03BC] (.node .nil k!"nbspace" [0x00A0] .nil)))))

/-- Part of `AGL`, codecs/agl.py. -/
def aglTree10 : GlyphTree :=
  .node (.node (.node (.node (.node (.node (.node .nil k!"ngadeva" [0x0919] .nil) k!"nnadeva" [0x0923] .nil) k!"notless" [0x226E] (.node .nil k!"nyadeva" [0x091E] .nil)) k!"obarred" [0x0275] (.node (.node .nil k!"ocircle" [0x24DE] .nil) k!"okorean" [0x3157] (.node .nil k!"omacron" [0x014D] .nil))) k!"omicron" [0x03BF] (.node (.node (.node .nil k!"onedeva" [0x0967] .nil) k!"onehalf" [0x00BD] (.node .nil k!"onethai" [0x0E51] .nil)) k!"oogonek" [0x01EB] (.node (.node .nil k!"patah11" [0x05B7] .nil) k!"patah1d" [0x05B7] (.node .nil k!"patah2a" [0x05B7] .nil)))) k!"pcircle" [0x24DF] (.node (.node (.node (.node (.node .nil k!"percent" [0x0025] .nil) k!"phadeva" [0x092B] .nil) k!"plusmod" [0x02D6] (.node .nil k!"product" [0x220F] .nil)) k!"qcircle" [0x24E0] (.node (.node .nil k!"radical" [0x221A] .nil) k!"rcircle" [0x24E1] (.node .nil k!"rhadeva" [0x095D] .nil))) k!"ringcmb" [0x030A] (.node (.node (.node .nil k!"rradeva" [0x0931] .nil) k!"rtblock" [0x2590] (.node .nil k!"rturned" [0x0279] .nil)) k!"scircle" [0x24E2] (.node (.node .nil k!"section" [0x00A7] .nil) k!"segol13" [0x05B6] (.node .nil k!"segol1f" [0x05B6] .nil))))) k!"segol2c" [0x05B6] (.node (.node (.node (.node (.node (.node .nil k!"shadeva" [0x0936] .nil) k!"sheva15" [0x05B0] .nil) k!"sheva22" [0x05B0] (.node .nil k!"sheva2e" [0x05B0] .nil)) k!"similar" [0x223C] (.node (.node .nil k!"sixdeva" [0x096C] .nil) k!"sixthai" [0x0E56] (.node .nil k!"ssadeva" [0x0937] .nil))) k!"tcircle" [0x24E3] (.node (.node (.node .nil k!"thadeva" [0x0925] .nil) k!"tonesix" [0x0185] (.node .nil k!"tonetwo" [0x01A8] .nil)) k!"triagdn" [0x25BC] (.node (.node .nil k!"triaglf" [0x25C4] .nil) k!"triagrt" [0x25BA] (.node .nil k!"triagup" [0x25B2] .nil)))) k!"tsere12" [0x05B5] (.node (.node (.node (.node .nil k!"tsere1e" [0x05B5] .nil) k!"tsere2b" [0x05B5] (.node .nil k!"ttadeva" [0x091F] .nil)) k!"tturned" [0x0287] (.node (.node .nil k!"twodeva" [0x0968] .nil) k!"twothai" [0x0E52] (.node .nil k!"ucircle" [0x24E4] .nil))) k!"ukorean" [0x315C] (.node (.node (.node .nil k!"umacron" [0x016B] .nil) k!"uogonek" [0x0173] (.node .nil k!"upblock" [0x2580] .nil)) k!"upsilon" [0x03C5] (.node (.node .nil k!"vcircle" [0x24E5] .nil) k!"vturned" [0x028C] (.node .nil k!"wcircle" [0x24E6] .nil)))))

/-- Part of `AGL`, codecs/agl.py. -/
def aglTree11 : GlyphTree :=
  .node (.node (.node (.node (.node (.node (.node .nil k!"xcircle" [0x24E7] .nil) k!"ycircle" [0x24E8] .nil) k!"yinyang" [0x262F] (.node .nil k!"yturned" [0x028E] .nil)) k!"yyadeva" [0x095F] (.node (.node .nil k!"zcircle" [0x24E9] .nil) k!"zstroke" [0x01B6] (.node .nil k!"AEmacron" [0x01E2] .nil))) k!"Ccedilla" [0x00C7] (.node (.node (.node .nil k!"Dafrican" [0x0189] .nil) k!"Dcedilla" [0x1E10] (.node .nil k!"Dieresis" [0xF6CB] .nil)) k!"Etatonos" [0x0389] (.node (.node .nil k!"Ethsmall" [0xF7F0] .nil) k!"Ezhcaron" [0x01EE] (.node .nil k!"GBsquare" [0x3387] .nil)))) k!"Gcedilla" [0x0122] (.node (.node (.node (.node (.node .nil k!"HPsquare" [0x33CB] .nil) k!"Hcedilla" [0x1E28] .nil) k!"Hzsquare" [0x3390] (.node .nil k!"Ifraktur" [0x2111] .nil)) k!"KBsquare" [0x3385] (.node (.node .nil k!"KKsquare" [0x33CD] .nil) k!"Kcedilla" [0x0136] (.node .nil k!"Lcedilla" [0x013B] .nil))) k!"MBsquare" [0x3386] (.node (.node (.node .nil k!"Ncedilla" [0x0145] .nil) k!"Oneroman" [0x2160] (.node .nil k!"Rcedilla" [0x0156] .nil)) k!"Rfraktur" [0x211C] (.node (.node .nil k!"SF010000" [0x250C] .nil) k!"SF020000" [0x2514] (.node .nil k!"SF030000" [0x2510] .nil))))) k!"SF040000" [0x2518] (.node (.node (.node (.node (.node (.node .nil k!"SF050000" [0x253C] .nil) k!"SF060000" [0x252C] .nil) k!"SF070000" [0x2534] (.node .nil k!"SF080000" [0x251C] .nil)) k!"SF090000" [0x2524] (.node (.node .nil k!"SF100000" [0x2500] .nil) k!"SF110000" [0x2502] (.node .nil k!"SF190000" [0x2561] .nil))) k!"SF200000" [0x2562] (.node (.node (.node .nil k!"SF210000" [0x2556] .nil) k!"SF220000" [0x2555] (.node .nil k!"SF230000" [0x2563] .nil)) k!"SF240000" [0x2551] (.node (.node .nil k!"SF250000" [0x2557] .nil) k!"SF260000" [0x255D] (.node .nil k!"SF270000" [0x255C] .nil)))) k!"SF280000" [0x255B] (.node (.node (.node (.node .nil k!"SF360000" [0x255E] .nil) k!"SF370000" [0x255F] (.node .nil k!"SF380000" [0x255A] .nil)) k!"SF390000" [0x2554] (.node (.node .nil k!"SF400000" [0x2569] .nil) k!"SF410000" [0x2566] (.node .nil k!"SF420000" [0x2560] .nil))) k!"SF430000" [0x2550] (.node (.node (.node .nil k!"SF440000" [0x256C] .nil) k!"SF450000" [0x2567] (.node .nil k!"SF460000" [0x2568] .nil)) k!"SF470000" [0x2564] (.node (.node .nil k!"SF480000" [0x2565] .nil) k!"SF490000" [0x2559] (.node .nil k!"SF500000" [0x2558] .nil)))))

/-- Part of `AGL`, codecs/agl.py. -/
def aglTree12 : GlyphTree :=
  .node (.node (.node (.node (.node (.node (.node .nil k!"SF520000" [0x2553] .nil) k!"SF530000" [0x256B] .nil) k!"SF540000" [0x256A] (.node .nil k!"Scedilla" [0x015E] .nil)) k!"Sixroman" [0x2165] (.node (.node .nil k!"Tcedilla" [0x0162] .nil) k!"Tenroman" [0x2169] (.node .nil k!"Tonefive" [0x01BC] .nil))) k!"Tworoman" [0x2161] (.node (.node (.node .nil k!"Upsilon1" [0x03D2] .nil) k!"abengali" [0x0985] (.node .nil k!"acutecmb" [0x0301] .nil)) k!"aekorean" [0x3150] (.node (.node .nil k!"aemacron" [0x01E3] .nil) k!"allequal" [0x224C] (.node .nil k!"amsquare" [0x33C2] .nil)))) k!"angstrom" [0x212B] (.node (.node (.node (.node (.node .nil k!"asterisk" [0x002A] .nil) k!"asterism" [0x2042] .nil) k!"bahtthai" [0x0E3F] (.node .nil k!"bqsquare" [0x33C3] .nil)) k!"brevecmb" [0x0306] (.node (.node .nil k!"bullseye" [0x25CE] .nil) k!"capslock" [0x21EA] (.node .nil k!"caroncmb" [0x030C] .nil))) k!"ccedilla" [0x00E7] (.node (.node (.node .nil k!"cdsquare" [0x33C5] .nil) k!"circleot" [0x2299] (.node .nil k!"cosquare" [0x33C7] .nil)) k!"cruzeiro" [0x20A2] (.node (.node .nil k!"curlyand" [0x22CF] .nil) k!"currency" [0x00A4] (.node .nil k!"cyrBreve" [0xF6D1] .nil))))) k!"cyrbreve" [0xF6D4] (.node (.node (.node (.node (.node (.node .nil k!"dblGrave" [0xF6D3] .nil) k!"dbldanda" [0x0965] .nil) k!"dblgrave" [0xF6D6] (.node .nil k!"dbsquare" [0x33C8] .nil)) k!"dcedilla" [0x1E11] (.node (.node .nil k!"ddhadeva" [0x0922] .nil) k!"dieresis" [0x00A8] (.node .nil k!"dlsquare" [0x3397] .nil))) k!"dotlessi" [0x0131] (.node (.node (.node .nil k!"dotlessj" [0xF6BE] .nil) k!"dzaltone" [0x02A3] (.node .nil k!"ebengali" [0x098F] .nil)) k!"ellipsis" [0x2026] (.node (.node .nil k!"emptyset" [0x2205] .nil) k!"eokorean" [0x3153] (.node .nil k!"etatonos" [0x03AE] .nil)))) k!"eukorean" [0x3161] (.node (.node (.node (.node .nil k!"ezhcaron" [0x01EF] .nil) k!"finalkaf" [0x05DA] (.node .nil k!"finalmem" [0x05DD] .nil)) k!"finalnun" [0x05DF] (.node (.node .nil k!"fivedeva" [0x096B] .nil) k!"fivethai" [0x0E55] (.node .nil k!"fmsquare" [0x3399] .nil))) k!"fofathai" [0x0E1D] (.node (.node (.node .nil k!"fourdeva" [0x096A] .nil) k!"fourthai" [0x0E54] (.node .nil k!"fraction" [0x2044] .nil)) k!"gcedilla" [0x0123] (.node (.node .nil k!"getamark" [0x3013] .nil) k!"ghhadeva" [0x095A] (.node .nil k!"gradient" [0x2207] .nil)))))

/-- Part of `AGL`, codecs/agl.py. -/
def aglTree13 : GlyphTree :=
  .node (.node (.node (.node (.node (.node (.node .nil k!"gysquare" [0x33C9] .nil) k!"hasquare" [0x33CA] .nil) k!"hcedilla" [0x1E29] (.node .nil k!"hedagesh" [0xFB34] .nil)) k!"hehebrew" [0x05D4] (.node (.node .nil k!"henghook" [0x0267] .nil) k!"ibengali" [0x0987] (.node .nil k!"infinity" [0x221E] .nil))) k!"integral" [0x222B] (.node (.node (.node .nil k!"kasquare" [0x3384] .nil) k!"kcedilla" [0x0137] (.node .nil k!"khhadeva" [0x0959] .nil)) k!"klsquare" [0x3398] (.node (.node .nil k!"ktsquare" [0x33CF] .nil) k!"kvsquare" [0x33B8] (.node .nil k!"kwsquare" [0x33BE] .nil)))) k!"lcedilla" [0x013C] (.node (.node (.node (.node (.node .nil k!"llladeva" [0x0934] .nil) k!"lmsquare" [0x33D0] .nil) k!"lxsquare" [0x33D3] (.node .nil k!"masquare" [0x3383] .nil)) k!"mbsquare" [0x33D4] (.node (.node .nil k!"minusmod" [0x02D7] .nil) k!"mlsquare" [0x3396] (.node .nil k!"momathai" [0x0E21] .nil))) k!"mssquare" [0x33B3] (.node (.node (.node .nil k!"muchless" [0x226A] .nil) k!"multiply" [0x00D7] (.node .nil k!"mvsquare" [0x33B7] .nil)) k!"mwsquare" [0x33BD] (.node (.node .nil k!"nasquare" [0x3381] .nil) k!"ncedilla" [0x0146] (.node .nil k!"nfsquare" [0x338B] .nil))))) k!"ninedeva" [0x096F] (.node (.node (.node (.node (.node (.node .nil k!"ninethai" [0x0E59] .nil) k!"nmsquare" [0x339A] .nil) k!"nnnadeva" [0x0929] (.node .nil k!"nonuthai" [0x0E19] .nil)) k!"notequal" [0x2260] (.node (.node .nil k!"nssquare" [0x33B1] .nil) k!"nvsquare" [0x33B5] (.node .nil k!"nwsquare" [0x33BB] .nil))) k!"oangthai" [0x0E2D] (.node (.node (.node .nil k!"obengali" [0x0993] .nil) k!"oekorean" [0x315A] (.node .nil k!"oneparen" [0x2474] .nil)) k!"oneroman" [0x2170] (.node (.node .nil k!"onethird" [0x2153] .nil) k!"overline" [0x203E] (.node .nil k!"pagedown" [0x21DF] .nil)))) k!"parallel" [0x2225] (.node (.node (.node (.node .nil k!"pasquare" [0x33A9] .nil) k!"pedagesh" [0xFB44] (.node .nil k!"pehebrew" [0x05E4] .nil)) k!"pfsquare" [0x338A] (.node (.node .nil k!"philatin" [0x0278] .nil) k!"pmsquare" [0x33D8] (.node .nil k!"precedes" [0x227A] .nil))) k!"primemod" [0x02B9] (.node (.node (.node .nil k!"pssquare" [0x33B0] .nil) k!"pvsquare" [0x33B4] (.node .nil k!"pwsquare" [0x33BA] .nil)) k!"qamats10" [0x05B8] (.node (.node .nil k!"qamats1a" [0x05B8] .nil) k!"qamats1c" [0x05B8] (.node .nil k!"qamats27" [0x05B8] .nil)))))

/-- Part of `AGL`, codecs/agl.py. -/
def aglTree14 : GlyphTree :=
  .node (.node (.node (.node (.node (.node (.node .nil k!"qamats33" [0x05B8] .nil) k!"qamatsde" [0x05B8] .nil) k!"qofhiriq" [0x05E7, 0x05B4] (.node .nil k!"qofholam" [0x05E7, 0x05B9] .nil)) k!"qofpatah" [0x05E7, 0x05B7] (.node (.node .nil k!"qofsegol" [0x05E7, 0x05B6] .nil) k!"qofsheva" [0x05E7, 0x05B0] (.node .nil k!"qoftsere" [0x05E7, 0x05B5] .nil))) k!"qubuts18" [0x05BB] (.node (.node (.node .nil k!"qubuts25" [0x05BB] .nil) k!"qubuts31" [0x05BB] (.node .nil k!"question" [0x003F] .nil)) k!"quotedbl" [0x0022] (.node (.node .nil k!"ramshorn" [0x0264] .nil) k!"rcedilla" [0x0157] (.node .nil k!"rlongleg" [0x027C] .nil)))) k!"scedilla" [0x015F] (.node (.node (.node (.node (.node .nil k!"sheva115" [0x05B0] .nil) k!"sixparen" [0x2479] .nil) k!"sixroman" [0x2175] (.node .nil k!"sosothai" [0x0E0B] .nil)) k!"squarecc" [0x33C4] (.node (.node .nil k!"squarecm" [0x339D] .nil) k!"squarekg" [0x338F] (.node .nil k!"squarekm" [0x339E] .nil))) k!"squareln" [0x33D1] (.node (.node (.node .nil k!"squaremg" [0x338E] .nil) k!"squaremm" [0x339C] (.node .nil k!"srsquare" [0x33DB] .nil)) k!"sterling" [0x00A3] (.node (.node .nil k!"succeeds" [0x227B] .nil) k!"suchthat" [0x220B] (.node .nil k!"superset" [0x2283] .nil))))) k!"svsquare" [0x33DC] (.node (.node (.node (.node (.node (.node .nil k!"tackdown" [0x22A4] .nil) k!"tackleft" [0x22A3] .nil) k!"tavdages" [0xFB4A] (.node .nil k!"tcedilla" [0x0163] .nil)) k!"tenparen" [0x247D] (.node (.node .nil k!"tenroman" [0x2179] .nil) k!"tildecmb" [0x0303] (.node .nil k!"tonefive" [0x01BD] .nil))) k!"tthadeva" [0x0920] (.node (.node (.node .nil k!"twoparen" [0x2475] .nil) k!"tworoman" [0x2171] (.node .nil k!"ubengali" [0x0989] .nil)) k!"vavholam" [0xFB4B] (.node (.node .nil k!"wakorean" [0x3158] .nil) k!"wavedash" [0x301C] (.node .nil k!"wbsquare" [0x33DD] .nil)))) k!"wekorean" [0x315E] (.node (.node (.node (.node .nil k!"wikorean" [0x315F] .nil) k!"yakorean" [0x3151] (.node .nil k!"yekorean" [0x3156] .nil)) k!"yikorean" [0x3162] (.node (.node .nil k!"yokorean" [0x315B] .nil) k!"yotgreek" [0x03F3] (.node .nil k!"yukorean" [0x3160] .nil))) k!"zerodeva" [0x0966] (.node (.node (.node .nil k!"zerothai" [0x0E50] .nil) k!"Acyrillic" [0x0410] (.node .nil k!"Adblgrave" [0x0200] .nil)) k!"Adieresis" [0x00C4] (.node (.node .nil k!"Adotbelow" [0x1EA0] .nil) k!"Bdotbelow" [0x1E04] (.node .nil k!"Ddotbelow" [0x1E0C] .nil)))))

/-- Part of `AGL`, codecs/agl.py. -/
def aglTree15 : GlyphTree :=
  .node (.node (.node (.node (.node (.node (.node .nil k!"Ecyrillic" [0x0404] .nil) k!"Edblgrave" [0x0204] .nil) k!"Edieresis" [0x00CB] (.node .nil k!"Edotbelow" [0x1EB8] .nil)) k!"Ereversed" [0x018E] (.node (.node .nil k!"Feicoptic" [0x03E4] .nil) k!"Fiveroman" [0x2164] (.node .nil k!"Fourroman" [0x2163] .nil))) k!"Hdieresis" [0x1E26] (.node (.node (.node .nil k!"Hdotbelow" [0x1E24] .nil) k!"Icyrillic" [0x0406] (.node .nil k!"Idblgrave" [0x0208] .nil)) k!"Idieresis" [0x00CF] (.node (.node .nil k!"Idotbelow" [0x1ECA] .nil) k!"Iotatonos" [0x038A] (.node .nil k!"Kdotbelow" [0x1E32] .nil)))) k!"Ldotbelow" [0x1E36] (.node (.node (.node (.node .nil k!"Mdotbelow" [0x1E42] .nil) k!"Ndotbelow" [0x1E46] (.node .nil k!"Nhookleft" [0x019D] .nil)) k!"Nineroman" [0x2168] (.node (.node .nil k!"Ocyrillic" [0x041E] .nil) k!"Odblacute" [0x0150] (.node .nil k!"Odblgrave" [0x020C] .nil))) k!"Odieresis" [0x00D6] (.node (.node (.node .nil k!"Odotbelow" [0x1ECC] .nil) k!"Rdblgrave" [0x0210] (.node .nil k!"Rdotbelow" [0x1E5A] .nil)) k!"Ringsmall" [0xF6FC] (.node (.node .nil k!"Sdotbelow" [0x1E62] .nil) k!"Tdotbelow" [0x1E6C] (.node .nil k!"Ucyrillic" [0x0423] .nil))))) k!"Udblacute" [0x0170] (.node (.node (.node (.node (.node (.node .nil k!"Udblgrave" [0x0214] .nil) k!"Udieresis" [0x00DC] .nil) k!"Udotbelow" [0x1EE4] (.node .nil k!"Vdotbelow" [0x1E7E] .nil)) k!"Wdieresis" [0x1E84] (.node (.node .nil k!"Wdotbelow" [0x1E88] .nil) k!"Xdieresis" [0x1E8C] (.node .nil k!"Ydieresis" [0x0178] .nil))) k!"Ydotbelow" [0x1EF4] (.node (.node (.node .nil k!"Zdotbelow" [0x1E92] .nil) k!"aabengali" [0x0986] (.node .nil k!"abopomofo" [0x311A] .nil)) k!"acutecomb" [0x0301] (.node (.node .nil k!"acutedeva" [0x0954] .nil) k!"acyrillic" [0x0430] (.node .nil k!"adblgrave" [0x0201] .nil)))) k!"adieresis" [0x00E4] (.node (.node (.node (.node .nil k!"adotbelow" [0x1EA1] .nil) k!"afii00208" [0x2015] (.node .nil k!"afii08941" [0x20A4] .nil)) k!"afii10017" [0x0410] (.node (.node .nil k!"afii10018" [0x0411] .nil) k!"afii10019" [0x0412] (.node .nil k!"afii10020" [0x0413] .nil))) k!"afii10021" [0x0414] (.node (.node (.node .nil k!"afii10022" [0x0415] .nil) k!"afii10023" [0x0401] (.node .nil k!"afii10024" [0x0416] .nil)) k!"afii10025" [0x0417] (.node (.node .nil k!"afii10026" [0x0418] .nil) k!"afii10027" [0x0419] (.node .nil k!"afii10028" [0x041A] .nil)))))

/-- Part of `AGL`, codecs/agl.py. -/
def aglTree16 : GlyphTree :=
  .node (.node (.node (.node (.node (.node (.node .nil k!"afii10030" [0x041C] .nil) k!"afii10031" [0x041D] .nil) k!"afii10032" [0x041E] (.node .nil k!"afii10033" [0x041F] .nil)) k!"afii10034" [0x0420] (.node (.node .nil k!"afii10035" [0x0421] .nil) k!"afii10036" [0x0422] (.node .nil k!"afii10037" [0x0423] .nil))) k!"afii10038" [0x0424] (.node (.node (.node .nil k!"afii10039" [0x0425] .nil) k!"afii10040" [0x0426] (.node .nil k!"afii10041" [0x0427] .nil)) k!"afii10042" [0x0428] (.node (.node .nil k!"afii10043" [0x0429] .nil) k!"afii10044" [0x042A] (.node .nil k!"afii10045" [0x042B] .nil)))) k!"afii10046" [0x042C] (.node (.node (.node (.node (.node .nil k!"afii10047" [0x042D] .nil) k!"afii10048" [0x042E] .nil) k!"afii10049" [0x042F] (.node .nil k!"afii10050" [0x0490] .nil)) k!"afii10051" [0x0402] (.node (.node .nil k!"afii10052" [0x0403] .nil) k!"afii10053" [0x0404] (.node .nil k!"afii10054" [0x0405] .nil))) k!"afii10055" [0x0406] (.node (.node (.node .nil k!"afii10056" [0x0407] .nil) k!"afii10057" [0x0408] (.node .nil k!"afii10058" [0x0409] .nil)) k!"afii10059" [0x040A] (.node (.node .nil k!"afii10060" [0x040B] .nil) k!"afii10061" [0x040C] (.node .nil k!"afii10062" [0x040E] .nil))))) k!"afii10063" [0xF6C4] (.node (.node (.node (.node (.node (.node .nil k!"afii10064" [0xF6C5] .nil) k!"afii10065" [0x0430] .nil) k!"afii10066" [0x0431] (.node .nil k!"afii10067" [0x0432] .nil)) k!"afii10068" [0x0433] (.node (.node .nil k!"afii10069" [0x0434] .nil) k!"afii10070" [0x0435] (.node .nil k!"afii10071" [0x0451] .nil))) k!"afii10072" [0x0436] (.node (.node (.node .nil k!"afii10073" [0x0437] .nil) k!"afii10074" [0x0438] (.node .nil k!"afii10075" [0x0439] .nil)) k!"afii10076" [0x043A] (.node (.node .nil k!"afii10077" [0x043B] .nil) k!"afii10078" [0x043C] (.node .nil k!"afii10079" [0x043D] .nil)))) k!"afii10080" [0x043E] (.node (.node (.node (.node .nil k!"afii10081" [0x043F] .nil) k!"afii10082" [0x0440] (.node .nil k!"afii10083" [0x0441] .nil)) k!"afii10084" [0x0442] (.node (.node .nil k!"afii10085" [0x0443] .nil) k!"afii10086" [0x0444] (.node .nil k!"afii10087" [0x0445] .nil))) k!"afii10088" [0x0446] (.node (.node (.node .nil k!"afii10089" [0x0447] .nil) k!"afii10090" [0x0448] (.node .nil k!"afii10091" [0x0449] .nil)) k!"afii10092" [0x044A] (.node (.node .nil k!"afii10093" [0x044B] .nil) k!"afii10094" [0x044C] (.node .nil k!"afii10095" [0x044D] .nil)))))

/-- Part of `AGL`, codecs/agl.py. -/
def aglTree17 : GlyphTree :=
  .node (.node (.node (.node (.node (.node (.node .nil k!"afii10097" [0x044F] .nil) k!"afii10098" [0x0491] .nil) k!"afii10099" [0x0452] (.node .nil k!"afii10100" [0x0453] .nil)) k!"afii10101" [0x0454] (.node (.node .nil k!"afii10102" [0x0455] .nil) k!"afii10103" [0x0456] (.node .nil k!"afii10104" [0x0457] .nil))) k!"afii10105" [0x0458] (.node (.node (.node .nil k!"afii10106" [0x0459] .nil) k!"afii10107" [0x045A] (.node .nil k!"afii10108" [0x045B] .nil)) k!"afii10109" [0x045C] (.node (.node .nil k!"afii10110" [0x045E] .nil) k!"afii10145" [0x040F] (.node .nil k!"afii10146" [0x0462] .nil)))) k!"afii10147" [0x0472] (.node (.node (.node (.node (.node .nil k!"afii10148" [0x0474] .nil) k!"afii10192" [0xF6C6] .nil) k!"afii10193" [0x045F] (.node .nil k!"afii10194" [0x0463] .nil)) k!"afii10195" [0x0473] (.node (.node .nil k!"afii10196" [0x0475] .nil) k!"afii10831" [0xF6C7] (.node .nil k!"afii10832" [0xF6C8] .nil))) k!"afii10846" [0x04D9] (.node (.node (.node .nil k!"afii57381" [0x066A] .nil) k!"afii57388" [0x060C] (.node .nil k!"afii57392" [0x0660] .nil)) k!"afii57393" [0x0661] (.node (.node .nil k!"afii57394" [0x0662] .nil) k!"afii57395" [0x0663] (.node .nil k!"afii57396" [0x0664] .nil))))) k!"afii57397" [0x0665] (.node (.node (.node (.node (.node (.node .nil k!"afii57398" [0x0666] .nil) k!"afii57399" [0x0667] .nil) k!"afii57400" [0x0668] (.node .nil k!"afii57401" [0x0669] .nil)) k!"afii57403" [0x061B] (.node (.node .nil k!"afii57407" [0x061F] .nil) k!"afii57409" [0x0621] (.node .nil k!"afii57410" [0x0622] .nil))) k!"afii57411" [0x0623] (.node (.node (.node .nil k!"afii57412" [0x0624] .nil) k!"afii57413" [0x0625] (.node .nil k!"afii57414" [0x0626] .nil)) k!"afii57415" [0x0627] (.node (.node .nil k!"afii57416" [0x0628] .nil) k!"afii57417" [0x0629] (.node .nil k!"afii57418" [0x062A] .nil)))) k!"afii57419" [0x062B] (.node (.node (.node (.node .nil k!"afii57420" [0x062C] .nil) k!"afii57421" [0x062D] (.node .nil k!"afii57422" [0x062E] .nil)) k!"afii57423" [0x062F] (.node (.node .nil k!"afii57424" [0x0630] .nil) k!"afii57425" [0x0631] (.node .nil k!"afii57426" [0x0632] .nil))) k!"afii57427" [0x0633] (.node (.node (.node .nil k!"afii57428" [0x0634] .nil) k!"afii57429" [0x0635] (.node .nil k!"afii57430" [0x0636] .nil)) k!"afii57431" [0x0637] (.node (.node .nil k!"afii57432" [0x0638] .nil) k!"afii57433" [0x0639] (.node .nil k!"afii57434" [0x063A] .nil)))))

/-- Part of `AGL`, codecs/agl.py. -/
def aglTree18 : GlyphTree :=
  .node (.node (.node (.node (.node (.node (.node .nil k!"afii57441" [0x0641] .nil) k!"afii57442" [0x0642] .nil) k!"afii57443" [0x0643] (.node .nil k!"afii57444" [0x0644] .nil)) k!"afii57445" [0x0645] (.node (.node .nil k!"afii57446" [0x0646] .nil) k!"afii57448" [0x0648] (.node .nil k!"afii57449" [0x0649] .nil))) k!"afii57450" [0x064A] (.node (.node (.node .nil k!"afii57451" [0x064B] .nil) k!"afii57452" [0x064C] (.node .nil k!"afii57453" [0x064D] .nil)) k!"afii57454" [0x064E] (.node (.node .nil k!"afii57455" [0x064F] .nil) k!"afii57456" [0x0650] (.node .nil k!"afii57457" [0x0651] .nil)))) k!"afii57458" [0x0652] (.node (.node (.node (.node (.node .nil k!"afii57470" [0x0647] .nil) k!"afii57505" [0x06A4] .nil) k!"afii57506" [0x067E] (.node .nil k!"afii57507" [0x0686] .nil)) k!"afii57508" [0x0698] (.node (.node .nil k!"afii57509" [0x06AF] .nil) k!"afii57511" [0x0679] (.node .nil k!"afii57512" [0x0688] .nil))) k!"afii57513" [0x0691] (.node (.node (.node .nil k!"afii57514" [0x06BA] .nil) k!"afii57519" [0x06D2] (.node .nil k!"afii57534" [0x06D5] .nil)) k!"afii57636" [0x20AA] (.node (.node .nil k!"afii57645" [0x05BE] .nil) k!"afii57658" [0x05C3] (.node .nil k!"afii57664" [0x05D0] .nil))))) k!"afii57665" [0x05D1] (.node (.node (.node (.node (.node (.node .nil k!"afii57666" [0x05D2] .nil) k!"afii57667" [0x05D3] .nil) k!"afii57668" [0x05D4] (.node .nil k!"afii57669" [0x05D5] .nil)) k!"afii57670" [0x05D6] (.node (.node .nil k!"afii57671" [0x05D7] .nil) k!"afii57672" [0x05D8] (.node .nil k!"afii57673" [0x05D9] .nil))) k!"afii57674" [0x05DA] (.node (.node (.node .nil k!"afii57675" [0x05DB] .nil) k!"afii57676" [0x05DC] (.node .nil k!"afii57677" [0x05DD] .nil)) k!"afii57678" [0x05DE] (.node (.node .nil k!"afii57679" [0x05DF] .nil) k!"afii57680" [0x05E0] (.node .nil k!"afii57681" [0x05E1] .nil)))) k!"afii57682" [0x05E2] (.node (.node (.node (.node .nil k!"afii57683" [0x05E3] .nil) k!"afii57684" [0x05E4] (.node .nil k!"afii57685" [0x05E5] .nil)) k!"afii57686" [0x05E6] (.node (.node .nil k!"afii57687" [0x05E7] .nil) k!"afii57688" [0x05E8] (.node .nil k!"afii57689" [0x05E9] .nil))) k!"afii57690" [0x05EA] (.node (.node (.node .nil k!"afii57694" [0xFB2A] .nil) k!"afii57695" [0xFB2B] (.node .nil k!"afii57700" [0xFB4B] .nil)) k!"afii57705" [0xFB1F] (.node (.node .nil k!"afii57716" [0x05F0] .nil) k!"afii57717" [0x05F1] (.node .nil k!"afii57718" [0x05F2] .nil)))))

/-- Part of `AGL`, codecs/agl.py. -/
def aglTree19 : GlyphTree :=
  .node (.node (.node (.node (.node (.node (.node .nil k!"afii57793" [0x05B4] .nil) k!"afii57794" [0x05B5] .nil) k!"afii57795" [0x05B6] (.node .nil k!"afii57796" [0x05BB] .nil)) k!"afii57797" [0x05B8] (.node (.node .nil k!"afii57798" [0x05B7] .nil) k!"afii57799" [0x05B0] (.node .nil k!"afii57800" [0x05B2] .nil))) k!"afii57801" [0x05B1] (.node (.node (.node .nil k!"afii57802" [0x05B3] .nil) k!"afii57803" [0x05C2] (.node .nil k!"afii57804" [0x05C1] .nil)) k!"afii57806" [0x05B9] (.node (.node .nil k!"afii57807" [0x05BC] .nil) k!"afii57839" [0x05BD] (.node .nil k!"afii57841" [0x05BF] .nil)))) k!"afii57842" [0x05C0] (.node (.node (.node (.node (.node .nil k!"afii57929" [0x02BC] .nil) k!"afii61248" [0x2105] .nil) k!"afii61289" [0x2113] (.node .nil k!"afii61352" [0x2116] .nil)) k!"afii61573" [0x202C] (.node (.node .nil k!"afii61574" [0x202D] .nil) k!"afii61575" [0x202E] (.node .nil k!"afii61664" [0x200C] .nil))) k!"afii63167" [0x066D] (.node (.node (.node .nil k!"afii64937" [0x02BD] .nil) k!"agujarati" [0x0A85] (.node .nil k!"agurmukhi" [0x0A05] .nil)) k!"ahiragana" [0x3042] (.node (.node .nil k!"aibengali" [0x0990] .nil) k!"ainarabic" [0x0639] (.node .nil k!"akatakana" [0x30A2] .nil))))) k!"ampersand" [0x0026] (.node (.node (.node (.node (.node (.node .nil k!"angleleft" [0x2329] .nil) k!"anoteleia" [0x0387] .nil) k!"arrowboth" [0x2194] (.node .nil k!"arrowdown" [0x2193] .nil)) k!"arrowleft" [0x2190] (.node (.node .nil k!"arrowupdn" [0x2195] .nil) k!"asuperior" [0xF6E9] (.node .nil k!"aubengali" [0x0994] .nil))) k!"babengali" [0x09AC] (.node (.node (.node .nil k!"backslash" [0x005C] .nil) k!"bbopomofo" [0x3105] (.node .nil k!"bdotbelow" [0x1E05] .nil)) k!"beharabic" [0x0628] (.node (.node .nil k!"betdagesh" [0xFB31] .nil) k!"bethebrew" [0x05D1] (.node .nil k!"blackstar" [0x2605] .nil)))) k!"braceleft" [0x007B] (.node (.node (.node (.node .nil k!"brokenbar" [0x00A6] .nil) k!"bsuperior" [0xF6EA] (.node .nil k!"cabengali" [0x099A] .nil)) k!"calsquare" [0x3388] (.node (.node .nil k!"cbopomofo" [0x3118] .nil) k!"checkmark" [0x2713] (.node .nil k!"colonsign" [0x20A1] .nil))) k!"congruent" [0x2245] (.node (.node (.node .nil k!"controlBS" [0x0008] .nil) k!"controlCR" [0x000D] (.node .nil k!"controlEM" [0x0019] .nil)) k!"controlFF" [0x000C] (.node (.node .nil k!"controlFS" [0x001C] .nil) k!"controlGS" [0x001D] (.node .nil k!"controlHT" [0x0009] .nil)))))

/-- Part of `AGL`, codecs/agl.py. -/
def aglTree20 : GlyphTree :=
  .node (.node (.node (.node (.node (.node (.node .nil k!"controlRS" [0x001E] .nil) k!"controlSI" [0x000F] .nil) k!"controlSO" [0x000E] (.node .nil k!"controlUS" [0x001F] .nil)) k!"controlVT" [0x000B] (.node (.node .nil k!"copyright" [0x00A9] .nil) k!"dabengali" [0x09A6] (.node .nil k!"dadarabic" [0x0636] .nil))) k!"daggerdbl" [0x2021] (.node (.node (.node .nil k!"dalarabic" [0x062F] .nil) k!"dbopomofo" [0x3109] (.node .nil k!"dddhadeva" [0x095C] .nil)) k!"ddotbelow" [0x1E0D] (.node (.node .nil k!"deicoptic" [0x03EF] .nil) k!"dittomark" [0x3003] (.node .nil k!"dodekthai" [0x0E14] .nil)))) k!"dotaccent" [0x02D9] (.node (.node (.node (.node (.node .nil k!"dsuperior" [0xF6EB] .nil) k!"ebopomofo" [0x311C] .nil) k!"ecyrillic" [0x0454] (.node .nil k!"edblgrave" [0x0205] .nil)) k!"edieresis" [0x00EB] (.node (.node .nil k!"edotbelow" [0x1EB9] .nil) k!"egujarati" [0x0A8F] (.node .nil k!"ehiragana" [0x3048] .nil))) k!"eightdeva" [0x096E] (.node (.node (.node .nil k!"eightthai" [0x0E58] .nil) k!"ekatakana" [0x30A8] (.node .nil k!"ereversed" [0x0258] .nil)) k!"estimated" [0x212E] (.node (.node .nil k!"esuperior" [0xF6EC] .nil) k!"exclamdbl" [0x203C] (.node .nil k!"fbopomofo" [0x3108] .nil))))) k!"feharabic" [0x0641] (.node (.node (.node (.node (.node (.node .nil k!"feicoptic" [0x03E5] .nil) k!"filledbox" [0x25A0] .nil) k!"fiveparen" [0x2478] (.node .nil k!"fiveroman" [0x2174] .nil)) k!"fofanthai" [0x0E1F] (.node (.node .nil k!"fourparen" [0x2477] .nil) k!"fourroman" [0x2173] (.node .nil k!"gabengali" [0x0997] .nil))) k!"gafarabic" [0x06AF] (.node (.node (.node .nil k!"gbopomofo" [0x310D] .nil) k!"ghzsquare" [0x3393] (.node .nil k!"gpasquare" [0x33AC] .nil)) k!"gravecomb" [0x0300] (.node (.node .nil k!"gravedeva" [0x0953] .nil) k!"habengali" [0x09B9] (.node .nil k!"haharabic" [0x062D] .nil)))) k!"hbopomofo" [0x310F] (.node (.node (.node (.node .nil k!"hdieresis" [0x1E27] .nil) k!"hdotbelow" [0x1E25] (.node .nil k!"heharabic" [0x0647] .nil)) k!"hethebrew" [0x05D7] (.node (.node .nil k!"hohipthai" [0x0E2B] .nil) k!"hsuperior" [0x02B0] (.node .nil k!"hyphentwo" [0x2010] .nil))) k!"ibopomofo" [0x3127] (.node (.node (.node .nil k!"icyrillic" [0x0456] .nil) k!"idblgrave" [0x0209] (.node .nil k!"idieresis" [0x00EF] .nil)) k!"idotbelow" [0x1ECB] (.node (.node .nil k!"igujarati" [0x0A87] .nil) k!"igurmukhi" [0x0A07] (.node .nil k!"ihiragana" [0x3044] .nil)))))

/-- Part of `AGL`, codecs/agl.py. -/
def aglTree21 : GlyphTree :=
  .node (.node (.node (.node (.node (.node (.node .nil k!"ikatakana" [0x30A4] .nil) k!"increment" [0x2206] .nil) k!"invbullet" [0x25D8] (.node .nil k!"invcircle" [0x25D9] .nil)) k!"iotalatin" [0x0269] (.node (.node .nil k!"iotatonos" [0x03AF] .nil) k!"isuperior" [0xF6ED] (.node .nil k!"jabengali" [0x099C] .nil))) k!"jbopomofo" [0x3110] (.node (.node (.node .nil k!"jeharabic" [0x0698] .nil) k!"jsuperior" [0x02B2] (.node .nil k!"kabengali" [0x0995] .nil)) k!"kafarabic" [0x0643] (.node (.node .nil k!"kafdagesh" [0xFB3B] .nil) k!"kafhebrew" [0x05DB] (.node .nil k!"kbopomofo" [0x310E] .nil)))) k!"kdotbelow" [0x1E33] (.node (.node (.node (.node (.node .nil k!"khzsquare" [0x3391] .nil) k!"kokaithai" [0x0E01] .nil) k!"kpasquare" [0x33AA] (.node .nil k!"labengali" [0x09B2] .nil)) k!"lamarabic" [0x0644] (.node (.node .nil k!"lbopomofo" [0x310C] .nil) k!"ldotbelow" [0x1E37] (.node .nil k!"lessequal" [0x2264] .nil))) k!"lesssmall" [0xFE64] (.node (.node (.node .nil k!"logicalor" [0x2228] .nil) k!"lsuperior" [0xF6EE] (.node .nil k!"mabengali" [0x09AE] .nil)) k!"macroncmb" [0x0304] (.node (.node .nil k!"maiekthai" [0x0E48] .nil) k!"mbopomofo" [0x3107] (.node .nil k!"mdotbelow" [0x1E43] .nil))))) k!"memdagesh" [0xFB3E] (.node (.node (.node (.node (.node (.node .nil k!"memhebrew" [0x05DE] .nil) k!"mhzsquare" [0x3392] .nil) k!"minusplus" [0x2213] (.node .nil k!"molsquare" [0x33D6] .nil)) k!"mpasquare" [0x33AB] (.node (.node .nil k!"msuperior" [0xF6EF] .nil) k!"muasquare" [0x3382] (.node .nil k!"mufsquare" [0x338C] .nil))) k!"mugsquare" [0x338D] (.node (.node (.node .nil k!"mulsquare" [0x3395] .nil) k!"mumsquare" [0x339B] (.node .nil k!"mussquare" [0x33B2] .nil)) k!"muvsquare" [0x33B6] (.node (.node .nil k!"muwsquare" [0x33BC] .nil) k!"nabengali" [0x09A8] (.node .nil k!"nbopomofo" [0x310B] .nil)))) k!"ndotbelow" [0x1E47] (.node (.node (.node (.node .nil k!"nhiragana" [0x3093] .nil) k!"nhookleft" [0x0272] (.node .nil k!"nineparen" [0x247C] .nil)) k!"nineroman" [0x2178] (.node (.node .nil k!"nkatakana" [0x30F3] .nil) k!"nonenthai" [0x0E13] (.node .nil k!"notsubset" [0x2284] .nil))) k!"nsuperior" [0x207F] (.node (.node (.node .nil k!"nuktadeva" [0x093C] .nil) k!"nundagesh" [0xFB40] (.node .nil k!"nunhebrew" [0x05E0] .nil)) k!"obopomofo" [0x311B] (.node (.node .nil k!"ocyrillic" [0x043E] .nil) k!"odblacute" [0x0151] (.node .nil k!"odblgrave" [0x020D] .nil)))))

/-- Part of `AGL`, codecs/agl.py. -/
def aglTree22 : GlyphTree :=
  .node (.node (.node (.node (.node (.node (.node .nil k!"odotbelow" [0x1ECD] .nil) k!"ogonekcmb" [0x0328] .nil) k!"ogujarati" [0x0A93] (.node .nil k!"ohiragana" [0x304A] .nil)) k!"okatakana" [0x30AA] (.node (.node .nil k!"olehebrew" [0x05AB] .nil) k!"onearabic" [0x0661] (.node .nil k!"onecircle" [0x2460] .nil))) k!"oneeighth" [0x215B] (.node (.node (.node .nil k!"onefitted" [0xF6DC] .nil) k!"oneperiod" [0x2488] (.node .nil k!"osuperior" [0xF6F0] .nil)) k!"overscore" [0x00AF] (.node (.node .nil k!"pabengali" [0x09AA] .nil) k!"paragraph" [0x00B6] (.node .nil k!"parenleft" [0x0028] .nil)))) k!"pbopomofo" [0x3106] (.node (.node (.node (.node (.node .nil k!"peharabic" [0x067E] .nil) k!"plusminus" [0x00B1] .nil) k!"plussmall" [0xFE62] (.node .nil k!"poplathai" [0x0E1B] .nil)) k!"propellor" [0x2318] (.node (.node .nil k!"qafarabic" [0x0642] .nil) k!"qbopomofo" [0x3111] (.node .nil k!"qofdagesh" [0xFB47] .nil))) k!"qofhebrew" [0x05E7] (.node (.node (.node .nil k!"qofqamats" [0x05E7, 0x05B8] .nil) k!"qofqubuts" [0x05E7, 0x05BB] (.node .nil k!"quoteleft" [0x2018] .nil)) k!"rabengali" [0x09B0] (.node (.node .nil k!"radicalex" [0xF8E5] .nil) k!"radsquare" [0x33AD] (.node .nil k!"rbopomofo" [0x3116] .nil))))) k!"rdblgrave" [0x0211] (.node (.node (.node (.node (.node (.node .nil k!"rdotbelow" [0x1E5B] .nil) k!"reharabic" [0x0631] .nil) k!"reshhiriq" [0x05E8, 0x05B4] (.node .nil k!"reshholam" [0x05E8, 0x05B9] .nil)) k!"reshpatah" [0x05E8, 0x05B7] (.node (.node .nil k!"reshsegol" [0x05E8, 0x05B6] .nil) k!"reshsheva" [0x05E8, 0x05B0] (.node .nil k!"reshtsere" [0x05E8, 0x05B5] .nil))) k!"rfishhook" [0x027E] (.node (.node (.node .nil k!"roruathai" [0x0E23] .nil) k!"rsuperior" [0xF6F1] (.node .nil k!"sabengali" [0x09B8] .nil)) k!"sadarabic" [0x0635] (.node (.node .nil k!"saraathai" [0x0E30] .nil) k!"saraethai" [0x0E40] (.node .nil k!"saraithai" [0x0E34] .nil)))) k!"saraothai" [0x0E42] (.node (.node (.node (.node .nil k!"sarauthai" [0x0E38] .nil) k!"sbopomofo" [0x3119] (.node .nil k!"schwahook" [0x025A] .nil)) k!"sdotbelow" [0x1E63] (.node (.node .nil k!"semicolon" [0x003B] .nil) k!"sevendeva" [0x096D] (.node .nil k!"seventhai" [0x0E57] .nil))) k!"sfthyphen" [0x00AD] (.node (.node (.node .nil k!"shadedark" [0x2593] .nil) k!"sixarabic" [0x0666] (.node .nil k!"sixcircle" [0x2465] .nil)) k!"sixperiod" [0x248D] (.node (.node .nil k!"smileface" [0x263A] .nil) k!"sosuathai" [0x0E2A] (.node .nil k!"squarelog" [0x33D2] .nil)))))

/-- Part of `AGL`, codecs/agl.py. -/
def aglTree23 : GlyphTree :=
  .node (.node (.node (.node (.node (.node (.node .nil k!"ssuperior" [0xF6F2] .nil) k!"summation" [0x2211] .nil) k!"tabengali" [0x09A4] (.node .nil k!"taharabic" [0x0637] .nil)) k!"tavdagesh" [0xFB4A] (.node (.node .nil k!"tavhebrew" [0x05EA] .nil) k!"tbopomofo" [0x310A] (.node .nil k!"tdieresis" [0x1E97] .nil))) k!"tdotbelow" [0x1E6D] (.node (.node (.node .nil k!"teharabic" [0x062A] .nil) k!"telephone" [0x2121] (.node .nil k!"tencircle" [0x2469] .nil)) k!"tenperiod" [0x2491] (.node (.node .nil k!"tetdagesh" [0xFB38] .nil) k!"tethebrew" [0x05D8] (.node .nil k!"therefore" [0x2234] .nil)))) k!"threedeva" [0x0969] (.node (.node (.node (.node .nil k!"threethai" [0x0E53] .nil) k!"thzsquare" [0x3394] (.node .nil k!"tildecomb" [0x0303] .nil)) k!"tonsquare" [0x3327] (.node (.node .nil k!"totaothai" [0x0E15] .nil) k!"trademark" [0x2122] (.node .nil k!"tsuperior" [0xF6F3] .nil))) k!"twoarabic" [0x0662] (.node (.node (.node .nil k!"twocircle" [0x2461] .nil) k!"twoperiod" [0x2489] (.node .nil k!"twostroke" [0x01BB] .nil)) k!"twothirds" [0x2154] (.node (.node .nil k!"ubopomofo" [0x3128] .nil) k!"ucyrillic" [0x0443] (.node .nil k!"udblacute" [0x0171] .nil))))) k!"udblgrave" [0x0215] (.node (.node (.node (.node (.node (.node .nil k!"udieresis" [0x00FC] .nil) k!"udotbelow" [0x1EE5] .nil) k!"ugujarati" [0x0A89] (.node .nil k!"ugurmukhi" [0x0A09] .nil)) k!"uhiragana" [0x3046] (.node (.node .nil k!"ukatakana" [0x30A6] .nil) k!"universal" [0x2200] (.node .nil k!"uptackmod" [0x02D4] .nil))) k!"uubengali" [0x098A] (.node (.node (.node .nil k!"vavdagesh" [0xFB35] .nil) k!"vavhebrew" [0x05D5] (.node .nil k!"vdotbelow" [0x1E7F] .nil)) k!"veharabic" [0x06A4] (.node (.node .nil k!"waekorean" [0x3159] .nil) k!"wawarabic" [0x0648] (.node .nil k!"wdieresis" [0x1E85] .nil)))) k!"wdotbelow" [0x1E89] (.node (.node (.node (.node .nil k!"weokorean" [0x315D] .nil) k!"whitestar" [0x2606] (.node .nil k!"wsuperior" [0x02B7] .nil)) k!"xabovecmb" [0x033D] (.node (.node .nil k!"xbopomofo" [0x3112] .nil) k!"xdieresis" [0x1E8D] (.node .nil k!"xsuperior" [0x02E3] .nil))) k!"yabengali" [0x09AF] (.node (.node (.node .nil k!"yaekorean" [0x3152] .nil) k!"ydieresis" [0x00FF] (.node .nil k!"ydotbelow" [0x1EF5] .nil)) k!"yeharabic" [0x064A] (.node (.node .nil k!"yeokorean" [0x3155] .nil) k!"yoddagesh" [0xFB39] (.node .nil k!"yodhebrew" [0x05D9] .nil)))))

/-- Part of `AGL`, codecs/agl.py. -/
def aglTree24 : GlyphTree :=
  .node (.node (.node (.node (.node (.node (.node .nil k!"yoyakthai" [0x0E22] .nil) k!"ysuperior" [0x02B8] .nil) k!"yuikorean" [0x318C] (.node .nil k!"zaharabic" [0x0638] .nil)) k!"zbopomofo" [0x3117] (.node (.node .nil k!"zdotbelow" [0x1E93] .nil) k!"Acutesmall" [0xF7B4] (.node .nil k!"Adotmacron" [0x01E0] .nil))) k!"Ahookabove" [0x1EA2] (.node (.node (.node .nil k!"Alphatonos" [0x0386] .nil) k!"Amonospace" [0xFF21] (.node .nil k!"Aringacute" [0x01FA] .nil)) k!"Aringbelow" [0x1E00] (.node (.node .nil k!"Aringsmall" [0xF7E5] .nil) k!"Bdotaccent" [0x1E02] (.node .nil k!"Becyrillic" [0x0411] .nil)))) k!"Blinebelow" [0x1E06] (.node (.node (.node (.node (.node .nil k!"Bmonospace" [0xFF22] .nil) k!"Brevesmall" [0xF6F4] .nil) k!"Caarmenian" [0x053E] (.node .nil k!"Caronsmall" [0xF6F5] .nil)) k!"Cdotaccent" [0x010A] (.node (.node .nil k!"Cmonospace" [0xFF23] .nil) k!"Coarmenian" [0x0551] (.node .nil k!"Daarmenian" [0x0534] .nil))) k!"Ddotaccent" [0x1E0A] (.node (.node (.node .nil k!"Decyrillic" [0x0414] .nil) k!"Deltagreek" [0x0394] (.node .nil k!"Dlinebelow" [0x1E0E] .nil)) k!"Dmonospace" [0xFF24] (.node (.node .nil k!"Edotaccent" [0x0116] .nil) k!"Efcyrillic" [0x0424] (.node .nil k!"Eharmenian" [0x0537] .nil))))) k!"Ehookabove" [0x1EBA] (.node (.node (.node (.node (.node (.node .nil k!"Eightroman" [0x2167] .nil) k!"Elcyrillic" [0x041B] .nil) k!"Emcyrillic" [0x041C] (.node .nil k!"Emonospace" [0xFF25] .nil)) k!"Encyrillic" [0x041D] (.node (.node .nil k!"Ercyrillic" [0x0420] .nil) k!"Escyrillic" [0x0421] (.node .nil k!"Etarmenian" [0x0538] .nil))) k!"Fdotaccent" [0x1E1E] (.node (.node (.node .nil k!"Fmonospace" [0xFF26] .nil) k!"Gdotaccent" [0x0120] (.node .nil k!"Gecyrillic" [0x0413] .nil)) k!"Gmonospace" [0xFF27] (.node (.node .nil k!"Gravesmall" [0xF760] .nil) k!"Gsmallhook" [0x029B] (.node .nil k!"Hdotaccent" [0x1E22] .nil)))) k!"Hmonospace" [0xFF28] (.node (.node (.node (.node .nil k!"Hoarmenian" [0x0540] .nil) k!"Horicoptic" [0x03E8] (.node .nil k!"IAcyrillic" [0x042F] .nil)) k!"IUcyrillic" [0x042E] (.node (.node .nil k!"Idotaccent" [0x0130] .nil) k!"Iecyrillic" [0x0415] (.node .nil k!"Ihookabove" [0x1EC8] .nil))) k!"Iicyrillic" [0x0418] (.node (.node (.node .nil k!"Imonospace" [0xFF29] .nil) k!"Iocyrillic" [0x0401] (.node .nil k!"Jaarmenian" [0x0541] .nil)) k!"Jecyrillic" [0x0408] (.node (.node .nil k!"Jmonospace" [0xFF2A] .nil) k!"Kacyrillic" [0x041A] (.node .nil k!"Kheicoptic" [0x03E6] .nil)))))

/-- Part of `AGL`, codecs/agl.py. -/
def aglTree25 : GlyphTree :=
  .node (.node (.node (.node (.node (.node (.node .nil k!"Kmonospace" [0xFF2B] .nil) k!"Koppagreek" [0x03DE] .nil) k!"Ldotaccent" [0x013F] (.node .nil k!"Llinebelow" [0x1E3A] .nil)) k!"Lmonospace" [0xFF2C] (.node (.node .nil k!"Mdotaccent" [0x1E40] .nil) k!"Mmonospace" [0xFF2D] (.node .nil k!"Ndotaccent" [0x1E44] .nil))) k!"Nlinebelow" [0x1E48] (.node (.node (.node .nil k!"Nmonospace" [0xFF2E] .nil) k!"Oharmenian" [0x0555] (.node .nil k!"Ohookabove" [0x1ECE] .nil)) k!"Ohornacute" [0x1EDA] (.node (.node .nil k!"Ohorngrave" [0x1EDC] .nil) k!"Ohorntilde" [0x1EE0] (.node .nil k!"Omegagreek" [0x03A9] .nil)))) k!"Omegatonos" [0x038F] (.node (.node (.node (.node (.node .nil k!"Omonospace" [0xFF2F] .nil) k!"Otcyrillic" [0x047E] .nil) k!"Pdotaccent" [0x1E56] (.node .nil k!"Pecyrillic" [0x041F] .nil)) k!"Pmonospace" [0xFF30] (.node (.node .nil k!"Qmonospace" [0xFF31] .nil) k!"Raarmenian" [0x054C] (.node .nil k!"Rdotaccent" [0x1E58] .nil))) k!"Rlinebelow" [0x1E5E] (.node (.node (.node .nil k!"Rmonospace" [0xFF32] .nil) k!"Sampigreek" [0x03E0] (.node .nil k!"Sdotaccent" [0x1E60] .nil)) k!"Sevenroman" [0x2166] (.node (.node .nil k!"Sheicoptic" [0x03E2] .nil) k!"Smonospace" [0xFF33] (.node .nil k!"Tdotaccent" [0x1E6A] .nil))))) k!"Tecyrillic" [0x0422] (.node (.node (.node (.node (.node (.node .nil k!"Thornsmall" [0xF7FE] .nil) k!"Threeroman" [0x2162] .nil) k!"Tildesmall" [0xF6FE] (.node .nil k!"Tlinebelow" [0x1E6E] .nil)) k!"Tmonospace" [0xFF34] (.node (.node .nil k!"Toarmenian" [0x0539] .nil) k!"Uhookabove" [0x1EE6] (.node .nil k!"Uhornacute" [0x1EE8] .nil))) k!"Uhorngrave" [0x1EEA] (.node (.node (.node .nil k!"Uhorntilde" [0x1EEE] .nil) k!"Ukcyrillic" [0x0478] (.node .nil k!"Umonospace" [0xFF35] .nil)) k!"Vecyrillic" [0x0412] (.node (.node .nil k!"Vmonospace" [0xFF36] .nil) k!"Voarmenian" [0x0548] (.node .nil k!"Wdotaccent" [0x1E86] .nil)))) k!"Wmonospace" [0xFF37] (.node (.node (.node (.node .nil k!"Xdotaccent" [0x1E8A] .nil) k!"Xmonospace" [0xFF38] (.node .nil k!"Ydotaccent" [0x1E8E] .nil)) k!"Yhookabove" [0x1EF6] (.node (.node .nil k!"Yiarmenian" [0x0545] .nil) k!"Yicyrillic" [0x0407] (.node .nil k!"Ymonospace" [0xFF39] .nil))) k!"Zaarmenian" [0x0536] (.node (.node (.node .nil k!"Zdotaccent" [0x017B] .nil) k!"Zecyrillic" [0x0417] (.node .nil k!"Zlinebelow" [0x1E94] .nil)) k!"Zmonospace" [0xFF3A] (.node (.node .nil k!"aagujarati" [0x0A86] .nil) k!"aagurmukhi" [0x0A06] (.node .nil k!"aarusquare" [0x3303] .nil)))))

/-- Part of `AGL`, codecs/agl.py. -/
def aglTree26 : GlyphTree :=
  .node (.node (.node (.node (.node (.node (.node .nil k!"ahookabove" [0x1EA3] .nil) k!"aibopomofo" [0x311E] .nil) k!"aigujarati" [0x0A90] (.node .nil k!"aigurmukhi" [0x0A10] .nil)) k!"alefarabic" [0x0627] (.node (.node .nil k!"alefhebrew" [0x05D0] .nil) k!"alphatonos" [0x03AC] (.node .nil k!"amonospace" [0xFF41] .nil))) k!"anbopomofo" [0x3122] (.node (.node (.node .nil k!"angleright" [0x232A] .nil) k!"approaches" [0x2250] (.node .nil k!"aringacute" [0x01FB] .nil)) k!"aringbelow" [0x1E01] (.node (.node .nil k!"arrowdblup" [0x21D1] .nil) k!"arrowright" [0x2192] (.node .nil k!"asciitilde" [0x007E] .nil)))) k!"aubopomofo" [0x3120] (.node (.node (.node (.node (.node .nil k!"augujarati" [0x0A94] .nil) k!"augurmukhi" [0x0A14] .nil) k!"ayinhebrew" [0x05E2] (.node .nil k!"bagujarati" [0x0AAC] .nil)) k!"bagurmukhi" [0x0A2C] (.node (.node .nil k!"bahiragana" [0x3070] .nil) k!"bakatakana" [0x30D0] (.node .nil k!"bdotaccent" [0x1E03] .nil))) k!"becyrillic" [0x0431] (.node (.node (.node .nil k!"behiragana" [0x3079] .nil) k!"bekatakana" [0x30D9] (.node .nil k!"bhabengali" [0x09AD] .nil)) k!"bihiragana" [0x3073] (.node (.node .nil k!"bikatakana" [0x30D3] .nil) k!"birusquare" [0x3331] (.node .nil k!"blinebelow" [0x1E07] .nil))))) k!"bmonospace" [0xFF42] (.node (.node (.node (.node (.node (.node .nil k!"bohiragana" [0x307C] .nil) k!"bokatakana" [0x30DC] .nil) k!"braceright" [0x007D] (.node .nil k!"buhiragana" [0x3076] .nil)) k!"bukatakana" [0x30D6] (.node (.node .nil k!"caarmenian" [0x056E] .nil) k!"cagujarati" [0x0A9A] (.node .nil k!"cagurmukhi" [0x0A1A] .nil))) k!"cdotaccent" [0x010B] (.node (.node (.node .nil k!"cedillacmb" [0x0327] .nil) k!"centigrade" [0x2103] (.node .nil k!"chabengali" [0x099B] .nil)) k!"chbopomofo" [0x3114] (.node (.node .nil k!"circleplus" [0x2295] .nil) k!"circumflex" [0x02C6] (.node .nil k!"cmonospace" [0xFF43] .nil)))) k!"coarmenian" [0x0581] (.node (.node (.node (.node .nil k!"colonsmall" [0xFE55] .nil) k!"commasmall" [0xFE50] (.node .nil k!"controlACK" [0x0006] .nil)) k!"controlBEL" [0x0007] (.node (.node .nil k!"controlCAN" [0x0018] .nil) k!"controlDC1" [0x0011] (.node .nil k!"controlDC2" [0x0012] .nil))) k!"controlDC3" [0x0013] (.node (.node (.node .nil k!"controlDC4" [0x0014] .nil) k!"controlDEL" [0x007F] (.node .nil k!"controlDLE" [0x0010] .nil)) k!"controlENQ" [0x0005] (.node (.node .nil k!"controlEOT" [0x0004] .nil) k!"controlESC" [0x001B] (.node .nil k!"controlETB" [0x0017] .nil)))))

/-- Part of `AGL`, codecs/agl.py. -/
def aglTree27 : GlyphTree :=
  .node (.node (.node (.node (.node (.node (.node .nil k!"controlNAK" [0x0015] .nil) k!"controlSOT" [0x0002] .nil) k!"controlSTX" [0x0001] (.node .nil k!"controlSUB" [0x001A] .nil)) k!"controlSYN" [0x0016] (.node (.node .nil k!"cstretched" [0x0297] .nil) k!"daarmenian" [0x0564] (.node .nil k!"dagujarati" [0x0AA6] .nil))) k!"dagurmukhi" [0x0A26] (.node (.node (.node .nil k!"dahiragana" [0x3060] .nil) k!"dakatakana" [0x30C0] (.node .nil k!"dalethiriq" [0x05D3, 0x05B4] .nil)) k!"daletholam" [0x05D3, 0x05B9] (.node (.node .nil k!"daletpatah" [0x05D3, 0x05B7] .nil) k!"daletsegol" [0x05D3, 0x05B6] (.node .nil k!"daletsheva" [0x05D3, 0x05B0] .nil)))) k!"dalettsere" [0x05D3, 0x05B5] (.node (.node (.node (.node (.node .nil k!"dbllowline" [0x2017] .nil) k!"ddabengali" [0x09A1] .nil) k!"ddalarabic" [0x0688] (.node .nil k!"ddotaccent" [0x1E0B] .nil)) k!"decyrillic" [0x0434] (.node (.node .nil k!"dehihebrew" [0x05AD] .nil) k!"dehiragana" [0x3067] (.node .nil k!"dekatakana" [0x30C7] .nil))) k!"deleteleft" [0x232B] (.node (.node (.node .nil k!"dhabengali" [0x09A7] .nil) k!"dihiragana" [0x3062] (.node .nil k!"dikatakana" [0x30C2] .nil)) k!"dlinebelow" [0x1E0F] (.node (.node .nil k!"dmonospace" [0xFF44] .nil) k!"dohiragana" [0x3069] (.node .nil k!"dokatakana" [0x30C9] .nil))))) k!"dorusquare" [0x3326] (.node (.node (.node (.node (.node (.node .nil k!"duhiragana" [0x3065] .nil) k!"dukatakana" [0x30C5] .nil) k!"edotaccent" [0x0117] (.node .nil k!"eegurmukhi" [0x0A0F] .nil)) k!"efcyrillic" [0x0444] (.node (.node .nil k!"eharmenian" [0x0567] .nil) k!"ehbopomofo" [0x311D] (.node .nil k!"ehookabove" [0x1EBB] .nil))) k!"eibopomofo" [0x311F] (.node (.node (.node .nil k!"eightparen" [0x247B] .nil) k!"eightroman" [0x2177] (.node .nil k!"elcyrillic" [0x043B] .nil)) k!"emcyrillic" [0x043C] (.node (.node .nil k!"emonospace" [0xFF45] .nil) k!"enbopomofo" [0x3123] (.node .nil k!"encyrillic" [0x043D] .nil)))) k!"equalsmall" [0xFE66] (.node (.node (.node (.node .nil k!"erbopomofo" [0x3126] .nil) k!"ercyrillic" [0x0440] (.node .nil k!"escyrillic" [0x0441] .nil)) k!"eshortdeva" [0x090E] (.node (.node .nil k!"etarmenian" [0x0568] .nil) k!"exclamdown" [0x00A1] (.node .nil k!"fagurmukhi" [0x0A5E] .nil))) k!"fahrenheit" [0x2109] (.node (.node (.node .nil k!"fdotaccent" [0x1E1F] .nil) k!"figuredash" [0x2012] (.node .nil k!"filledrect" [0x25AC] .nil)) k!"finaltsadi" [0x05E5] (.node (.node .nil k!"fivearabic" [0x0665] .nil) k!"fivecircle" [0x2464] (.node .nil k!"fiveperiod" [0x248C] .nil)))))

/-- Part of `AGL`, codecs/agl.py. -/
def aglTree28 : GlyphTree :=
  .node (.node (.node (.node (.node (.node (.node .nil k!"fourarabic" [0x0664] .nil) k!"fourcircle" [0x2463] .nil) k!"fourperiod" [0x248B] (.node .nil k!"gagujarati" [0x0A97] .nil)) k!"gagurmukhi" [0x0A17] (.node (.node .nil k!"gahiragana" [0x304C] .nil) k!"gakatakana" [0x30AC] (.node .nil k!"gdotaccent" [0x0121] .nil))) k!"gecyrillic" [0x0433] (.node (.node (.node .nil k!"gehiragana" [0x3052] .nil) k!"gekatakana" [0x30B2] (.node .nil k!"germandbls" [0x00DF] .nil)) k!"ghabengali" [0x0998] (.node (.node .nil k!"gihiragana" [0x304E] .nil) k!"gikatakana" [0x30AE] (.node .nil k!"gmonospace" [0xFF47] .nil)))) k!"gohiragana" [0x3054] (.node (.node (.node (.node (.node .nil k!"gokatakana" [0x30B4] .nil) k!"guhiragana" [0x3050] .nil) k!"gukatakana" [0x30B0] (.node .nil k!"hagujarati" [0x0AB9] .nil)) k!"hagurmukhi" [0x0A39] (.node (.node .nil k!"hahiragana" [0x306F] .nil) k!"hakatakana" [0x30CF] (.node .nil k!"hatafpatah" [0x05B2] .nil))) k!"hatafsegol" [0x05B1] (.node (.node (.node .nil k!"hdotaccent" [0x1E23] .nil) k!"hehiragana" [0x3078] (.node .nil k!"hekatakana" [0x30D8] .nil)) k!"hihiragana" [0x3072] (.node (.node .nil k!"hikatakana" [0x30D2] .nil) k!"hlinebelow" [0x1E96] (.node .nil k!"hmonospace" [0xFF48] .nil))))) k!"hoarmenian" [0x0570] (.node (.node (.node (.node (.node (.node .nil k!"hohiragana" [0x307B] .nil) k!"hokatakana" [0x30DB] .nil) k!"hoonsquare" [0x3342] (.node .nil k!"horicoptic" [0x03E9] .nil)) k!"hotsprings" [0x2668] (.node (.node .nil k!"huhiragana" [0x3075] .nil) k!"hukatakana" [0x30D5] (.node .nil k!"iacyrillic" [0x044F] .nil))) k!"iecyrillic" [0x0435] (.node (.node (.node .nil k!"ihookabove" [0x1EC9] .nil) k!"iicyrillic" [0x0438] (.node .nil k!"iigujarati" [0x0A88] .nil)) k!"iigurmukhi" [0x0A08] (.node (.node .nil k!"iluyhebrew" [0x05AC] .nil) k!"imonospace" [0xFF49] (.node .nil k!"integralbt" [0x2321] .nil)))) k!"integralex" [0xF8F5] (.node (.node (.node (.node .nil k!"integraltp" [0x2320] .nil) k!"intisquare" [0x3305] (.node .nil k!"iocyrillic" [0x0451] .nil)) k!"iubopomofo" [0x3129] (.node (.node .nil k!"iucyrillic" [0x044E] .nil) k!"jaarmenian" [0x0571] (.node .nil k!"jagujarati" [0x0A9C] .nil))) k!"jagurmukhi" [0x0A1C] (.node (.node (.node .nil k!"jecyrillic" [0x0458] .nil) k!"jeemarabic" [0x062C] (.node .nil k!"jhabengali" [0x099D] .nil)) k!"jmonospace" [0xFF4A] (.node (.node .nil k!"kacyrillic" [0x043A] .nil) k!"kagujarati" [0x0A95] (.node .nil k!"kagurmukhi" [0x0A15] .nil)))))

/-- Part of `AGL`, codecs/agl.py. -/
def aglTree29 : GlyphTree :=
  .node (.node (.node (.node (.node (.node (.node .nil k!"kakatakana" [0x30AB] .nil) k!"kcalsquare" [0x3389] .nil) k!"kehiragana" [0x3051] (.node .nil k!"kekatakana" [0x30B1] .nil)) k!"khabengali" [0x0996] (.node (.node .nil k!"khaharabic" [0x062E] .nil) k!"kheicoptic" [0x03E7] (.node .nil k!"khomutthai" [0x0E5B] .nil))) k!"kihiragana" [0x304D] (.node (.node (.node .nil k!"kikatakana" [0x30AD] .nil) k!"kirosquare" [0x3314] (.node .nil k!"klinebelow" [0x1E35] .nil)) k!"kmonospace" [0xFF4B] (.node (.node .nil k!"kohiragana" [0x3053] .nil) k!"kohmsquare" [0x33C0] (.node .nil k!"kokatakana" [0x30B3] .nil)))) k!"koroniscmb" [0x0343] (.node (.node (.node (.node (.node .nil k!"kuhiragana" [0x304F] .nil) k!"kukatakana" [0x30AF] .nil) k!"lagujarati" [0x0AB2] (.node .nil k!"lagurmukhi" [0x0A32] .nil)) k!"lamedholam" [0x05DC, 0x05B9] (.node (.node .nil k!"ldotaccent" [0x0140] .nil) k!"llinebelow" [0x1E3B] (.node .nil k!"lmonospace" [0xFF4C] .nil))) k!"logicaland" [0x2227] (.node (.node (.node .nil k!"logicalnot" [0x00AC] .nil) k!"lolingthai" [0x0E25] (.node .nil k!"lowlinecmb" [0x0332] .nil)) k!"magujarati" [0x0AAE] (.node (.node .nil k!"magurmukhi" [0x0A2E] .nil) k!"mahiragana" [0x307E] (.node .nil k!"maithothai" [0x0E49] .nil))))) k!"maitrithai" [0x0E4A] (.node (.node (.node (.node (.node (.node .nil k!"makatakana" [0x30DE] .nil) k!"mdotaccent" [0x1E41] .nil) k!"meemarabic" [0x0645] (.node .nil k!"mehiragana" [0x3081] .nil)) k!"mekatakana" [0x30E1] (.node (.node .nil k!"mihiragana" [0x307F] .nil) k!"mikatakana" [0x30DF] (.node .nil k!"mirisquare" [0x3349] .nil))) k!"mmonospace" [0xFF4D] (.node (.node (.node .nil k!"mohiragana" [0x3082] .nil) k!"mohmsquare" [0x33C1] (.node .nil k!"mokatakana" [0x30E2] .nil)) k!"muhiragana" [0x3080] (.node (.node .nil k!"mukatakana" [0x30E0] .nil) k!"nagujarati" [0x0AA8] (.node .nil k!"nagurmukhi" [0x0A28] .nil)))) k!"nahiragana" [0x306A] (.node (.node (.node (.node .nil k!"nakatakana" [0x30CA] .nil) k!"ndotaccent" [0x1E45] (.node .nil k!"nehiragana" [0x306D] .nil)) k!"nekatakana" [0x30CD] (.node (.node .nil k!"ngabengali" [0x0999] .nil) k!"ngonguthai" [0x0E07] (.node .nil k!"nihiragana" [0x306B] .nil))) k!"nikatakana" [0x30CB] (.node (.node (.node .nil k!"ninearabic" [0x0669] .nil) k!"ninecircle" [0x2468] (.node .nil k!"nineperiod" [0x2490] .nil)) k!"nlinebelow" [0x1E49] (.node (.node .nil k!"nmonospace" [0xFF4E] .nil) k!"nnabengali" [0x09A3] (.node .nil k!"nohiragana" [0x306E] .nil)))))

/-- Part of `AGL`, codecs/agl.py. -/
def aglTree30 : GlyphTree :=
  .node (.node (.node (.node (.node (.node (.node .nil k!"noonarabic" [0x0646] .nil) k!"notelement" [0x2209] .nil) k!"notgreater" [0x226F] (.node .nil k!"nuhiragana" [0x306C] .nil)) k!"nukatakana" [0x30CC] (.node (.node .nil k!"numbersign" [0x0023] .nil) k!"nyabengali" [0x099E] (.node .nil k!"oharmenian" [0x0585] .nil))) k!"ohookabove" [0x1ECF] (.node (.node (.node .nil k!"ohornacute" [0x1EDB] .nil) k!"ohorngrave" [0x1EDD] (.node .nil k!"ohorntilde" [0x1EE1] .nil)) k!"omegatonos" [0x03CE] (.node (.node .nil k!"omgujarati" [0x0AD0] .nil) k!"omonospace" [0xFF4F] (.node .nil k!"onebengali" [0x09E7] .nil)))) k!"onepersian" [0x06F1] (.node (.node (.node (.node (.node .nil k!"onequarter" [0x00BC] .nil) k!"oogurmukhi" [0x0A13] .nil) k!"openbullet" [0x25E6] (.node .nil k!"orthogonal" [0x221F] .nil)) k!"oshortdeva" [0x0912] (.node (.node .nil k!"otcyrillic" [0x047F] .nil) k!"oubopomofo" [0x3121] (.node .nil k!"pagujarati" [0x0AAA] .nil))) k!"pagurmukhi" [0x0A2A] (.node (.node (.node .nil k!"pahiragana" [0x3071] .nil) k!"pakatakana" [0x30D1] (.node .nil k!"parenright" [0x0029] .nil)) k!"pdotaccent" [0x1E57] (.node (.node .nil k!"pecyrillic" [0x043F] .nil) k!"pehiragana" [0x307A] (.node .nil k!"pekatakana" [0x30DA] .nil))))) k!"phabengali" [0x09AB] (.node (.node (.node (.node (.node (.node .nil k!"pihiragana" [0x3074] .nil) k!"pikatakana" [0x30D4] .nil) k!"pluscircle" [0x2295] (.node .nil k!"pmonospace" [0xFF50] .nil)) k!"pohiragana" [0x307D] (.node (.node .nil k!"pokatakana" [0x30DD] .nil) k!"postalmark" [0x3012] (.node .nil k!"projective" [0x2305] .nil))) k!"proportion" [0x2237] (.node (.node (.node .nil k!"puhiragana" [0x3077] .nil) k!"pukatakana" [0x30D7] (.node .nil k!"qmonospace" [0xFF51] .nil)) k!"quoteright" [0x2019] (.node (.node .nil k!"raarmenian" [0x057C] .nil) k!"rafehebrew" [0x05BF] (.node .nil k!"ragujarati" [0x0AB0] .nil)))) k!"ragurmukhi" [0x0A30] (.node (.node (.node (.node .nil k!"rahiragana" [0x3089] .nil) k!"rakatakana" [0x30E9] (.node .nil k!"rdotaccent" [0x1E59] .nil)) k!"registered" [0x00AE] (.node (.node .nil k!"rehiragana" [0x308C] .nil) k!"rekatakana" [0x30EC] (.node .nil k!"reshhebrew" [0x05E8] .nil))) k!"reshqamats" [0x05E8, 0x05B8] (.node (.node (.node .nil k!"reshqubuts" [0x05E8, 0x05BB] .nil) k!"rhabengali" [0x09DD] (.node .nil k!"rightangle" [0x221F] .nil)) k!"rihiragana" [0x308A] (.node (.node .nil k!"rikatakana" [0x30EA] .nil) k!"rlinebelow" [0x1E5F] (.node .nil k!"rmonospace" [0xFF52] .nil)))))

/-- Part of `AGL`, codecs/agl.py. -/
def aglTree31 : GlyphTree :=
  .node (.node (.node (.node (.node (.node (.node .nil k!"rokatakana" [0x30ED] .nil) k!"rrabengali" [0x09DC] .nil) k!"rreharabic" [0x0691] (.node .nil k!"ruhiragana" [0x308B] .nil)) k!"rukatakana" [0x30EB] (.node (.node .nil k!"sagujarati" [0x0AB8] .nil) k!"sagurmukhi" [0x0A38] (.node .nil k!"sahiragana" [0x3055] .nil))) k!"sakatakana" [0x30B5] (.node (.node (.node .nil k!"saraaathai" [0x0E32] .nil) k!"saraaethai" [0x0E41] (.node .nil k!"saraamthai" [0x0E33] .nil)) k!"saraiithai" [0x0E35] (.node (.node .nil k!"sarauethai" [0x0E36] .nil) k!"sarauuthai" [0x0E39] (.node .nil k!"sdotaccent" [0x1E61] .nil)))) k!"seenarabic" [0x0633] (.node (.node (.node (.node .nil k!"sehiragana" [0x305B] .nil) k!"sekatakana" [0x30BB] (.node .nil k!"sevenparen" [0x247A] .nil)) k!"sevenroman" [0x2176] (.node (.node .nil k!"shabengali" [0x09B6] .nil) k!"shadelight" [0x2591] (.node .nil k!"shbopomofo" [0x3115] .nil))) k!"sheicoptic" [0x03E3] (.node (.node (.node .nil k!"shindagesh" [0xFB49] .nil) k!"shinhebrew" [0x05E9] (.node .nil k!"shinsindot" [0xFB2B] .nil)) k!"sigmafinal" [0x03C2] (.node (.node .nil k!"sihiragana" [0x3057] .nil) k!"sikatakana" [0x30B7] (.node .nil k!"sioskorean" [0x3145] .nil))))) k!"sixbengali" [0x09EC] (.node (.node (.node (.node (.node (.node .nil k!"sixpersian" [0x06F6] .nil) k!"smonospace" [0xFF53] .nil) k!"softhyphen" [0x00AD] (.node .nil k!"sohiragana" [0x305D] .nil)) k!"sokatakana" [0x30BD] (.node (.node .nil k!"sorusithai" [0x0E29] .nil) k!"sosalathai" [0x0E28] (.node .nil k!"ssabengali" [0x09B7] .nil))) k!"suhiragana" [0x3059] (.node (.node (.node .nil k!"sukatakana" [0x30B9] .nil) k!"tagujarati" [0x0AA4] (.node .nil k!"tagurmukhi" [0x0A24] .nil)) k!"tahiragana" [0x305F] (.node (.node .nil k!"takatakana" [0x30BF] .nil) k!"tdotaccent" [0x1E6B] (.node .nil k!"tecyrillic" [0x0442] .nil)))) k!"tehiragana" [0x3066] (.node (.node (.node (.node .nil k!"tekatakana" [0x30C6] .nil) k!"thabengali" [0x09A5] (.node .nil k!"thalarabic" [0x0630] .nil)) k!"theharabic" [0x062B] (.node (.node .nil k!"threeparen" [0x2476] .nil) k!"threeroman" [0x2172] (.node .nil k!"tihiragana" [0x3061] .nil))) k!"tikatakana" [0x30C1] (.node (.node (.node .nil k!"tlinebelow" [0x1E6F] .nil) k!"tmonospace" [0xFF54] (.node .nil k!"toarmenian" [0x0569] .nil)) k!"tohiragana" [0x3068] (.node (.node .nil k!"tokatakana" [0x30C8] .nil) k!"ttabengali" [0x099F] (.node .nil k!"tteharabic" [0x0679] .nil)))))

/-- Part of `AGL`, codecs/agl.py. -/
def aglTree32 : GlyphTree :=
  .node (.node (.node (.node (.node (.node (.node .nil k!"tukatakana" [0x30C4] .nil) k!"twobengali" [0x09E8] .nil) k!"twopersian" [0x06F2] (.node .nil k!"udattadeva" [0x0951] .nil)) k!"uhookabove" [0x1EE7] (.node (.node .nil k!"uhornacute" [0x1EE9] .nil) k!"uhorngrave" [0x1EEB] (.node .nil k!"uhorntilde" [0x1EEF] .nil))) k!"ukcyrillic" [0x0479] (.node (.node (.node .nil k!"umonospace" [0xFF55] .nil) k!"underscore" [0x005F] (.node .nil k!"uugujarati" [0x0A8A] .nil)) k!"uugurmukhi" [0x0A0A] (.node (.node .nil k!"vagujarati" [0x0AB5] .nil) k!"vagurmukhi" [0x0A35] (.node .nil k!"vakatakana" [0x30F7] .nil)))) k!"vecyrillic" [0x0432] (.node (.node (.node (.node (.node .nil k!"vekatakana" [0x30F9] .nil) k!"vikatakana" [0x30F8] .nil) k!"viramadeva" [0x094D] (.node .nil k!"vmonospace" [0xFF56] .nil)) k!"voarmenian" [0x0578] (.node (.node .nil k!"vokatakana" [0x30FA] .nil) k!"vuhiragana" [0x3094] (.node .nil k!"vukatakana" [0x30F4] .nil))) k!"wahiragana" [0x308F] (.node (.node (.node .nil k!"wakatakana" [0x30EF] .nil) k!"wdotaccent" [0x1E87] (.node .nil k!"wehiragana" [0x3091] .nil)) k!"wekatakana" [0x30F1] (.node (.node .nil k!"wihiragana" [0x3090] .nil) k!"wikatakana" [0x30F0] (.node .nil k!"wmonospace" [0xFF57] .nil))))) k!"wohiragana" [0x3092] (.node (.node (.node (.node (.node (.node .nil k!"wokatakana" [0x30F2] .nil) k!"wowaenthai" [0x0E27] .nil) k!"xdotaccent" [0x1E8B] (.node .nil k!"xmonospace" [0xFF58] .nil)) k!"yagujarati" [0x0AAF] (.node (.node .nil k!"yagurmukhi" [0x0A2F] .nil) k!"yahiragana" [0x3084] (.node .nil k!"yakatakana" [0x30E4] .nil))) k!"ydotaccent" [0x1E8F] (.node (.node (.node .nil k!"yhookabove" [0x1EF7] .nil) k!"yiarmenian" [0x0575] (.node .nil k!"yicyrillic" [0x0457] .nil)) k!"ymonospace" [0xFF59] (.node (.node .nil k!"yohiragana" [0x3088] .nil) k!"yokatakana" [0x30E8] (.node .nil k!"yoyakorean" [0x3187] .nil)))) k!"yoyingthai" [0x0E0D] (.node (.node (.node (.node .nil k!"yuhiragana" [0x3086] .nil) k!"yukatakana" [0x30E6] (.node .nil k!"yuyekorean" [0x318B] .nil)) k!"yyabengali" [0x09DF] (.node (.node .nil k!"zaarmenian" [0x0566] .nil) k!"zagurmukhi" [0x0A5B] (.node .nil k!"zahiragana" [0x3056] .nil))) k!"zainarabic" [0x0632] (.node (.node (.node .nil k!"zakatakana" [0x30B6] .nil) k!"zdotaccent" [0x017C] (.node .nil k!"zecyrillic" [0x0437] .nil)) k!"zehiragana" [0x305C] (.node (.node .nil k!"zekatakana" [0x30BC] .nil) k!"zeroarabic" [0x0660] (.node .nil k!"zhbopomofo" [0x3113] .nil)))))

/-- Part of `AGL`, codecs/agl.py. -/
def aglTree33 : GlyphTree :=
  .node (.node (.node (.node (.node (.node (.node .nil k!"zikatakana" [0x30B8] .nil) k!"zlinebelow" [0x1E95] .nil) k!"zmonospace" [0xFF5A] (.node .nil k!"zohiragana" [0x305E] .nil)) k!"zokatakana" [0x30BE] (.node (.node .nil k!"zuhiragana" [0x305A] .nil) k!"zukatakana" [0x30BA] (.node .nil k!"Aacutesmall" [0xF7E1] .nil))) k!"Abreveacute" [0x1EAE] (.node (.node (.node .nil k!"Abrevegrave" [0x1EB0] .nil) k!"Abrevetilde" [0x1EB4] (.node .nil k!"Acircumflex" [0x00C2] .nil)) k!"Agravesmall" [0xF7E0] (.node (.node .nil k!"Aiecyrillic" [0x04D4] .nil) k!"Atildesmall" [0xF7E3] (.node .nil k!"Aybarmenian" [0x0531] .nil)))) k!"Benarmenian" [0x0532] (.node (.node (.node (.node (.node .nil k!"Ccircumflex" [0x0108] .nil) k!"Chaarmenian" [0x0549] .nil) k!"Checyrillic" [0x0427] (.node .nil k!"Djecyrillic" [0x0402] .nil)) k!"Dzecyrillic" [0x0405] (.node (.node .nil k!"Eacutesmall" [0xF7E9] .nil) k!"Echarmenian" [0x0535] (.node .nil k!"Ecircumflex" [0x00CA] .nil))) k!"Egravesmall" [0xF7E8] (.node (.node (.node .nil k!"Elevenroman" [0x216A] .nil) k!"Etildebelow" [0x1E1A] (.node .nil k!"Ezhreversed" [0x01B8] .nil)) k!"Feharmenian" [0x0556] (.node (.node .nil k!"Gcircumflex" [0x011C] .nil) k!"Gimarmenian" [0x0533] (.node .nil k!"Gjecyrillic" [0x0403] .nil))))) k!"Hbrevebelow" [0x1E2A] (.node (.node (.node (.node (.node (.node .nil k!"Hcircumflex" [0x0124] .nil) k!"Iacutesmall" [0xF7ED] .nil) k!"Icircumflex" [0x00CE] (.node .nil k!"Igravesmall" [0xF7EC] .nil)) k!"Iniarmenian" [0x053B] (.node (.node .nil k!"Iotaafrican" [0x0196] .nil) k!"Itildebelow" [0x1E2C] (.node .nil k!"Jcircumflex" [0x0134] .nil))) k!"Keharmenian" [0x0554] (.node (.node (.node .nil k!"Kenarmenian" [0x053F] .nil) k!"Khacyrillic" [0x0425] (.node .nil k!"Kjecyrillic" [0x040C] .nil)) k!"Ksicyrillic" [0x046E] (.node (.node .nil k!"Ljecyrillic" [0x0409] .nil) k!"Lslashsmall" [0xF6F9] (.node .nil k!"Macronsmall" [0xF7AF] .nil)))) k!"Menarmenian" [0x0544] (.node (.node (.node (.node .nil k!"Njecyrillic" [0x040A] .nil) k!"Nowarmenian" [0x0546] (.node .nil k!"Ntildesmall" [0xF7F1] .nil)) k!"Oacutesmall" [0xF7F3] (.node (.node .nil k!"Ocircumflex" [0x00D4] .nil) k!"Ogoneksmall" [0xF6FB] (.node .nil k!"Ogravesmall" [0xF7F2] .nil))) k!"Oslashacute" [0x01FE] (.node (.node (.node .nil k!"Oslashsmall" [0xF7F8] .nil) k!"Otildeacute" [0x1E4C] (.node .nil k!"Otildesmall" [0xF7F5] .nil)) k!"Peharmenian" [0x054A] (.node (.node .nil k!"Psicyrillic" [0x0470] .nil) k!"Reharmenian" [0x0550] (.node .nil k!"Scaronsmall" [0xF6FD] .nil)))))

/-- Part of `AGL`, codecs/agl.py. -/
def aglTree34 : GlyphTree :=
  .node (.node (.node (.node (.node (.node (.node .nil k!"Seharmenian" [0x054D] .nil) k!"Shaarmenian" [0x0547] .nil) k!"Shacyrillic" [0x0428] (.node .nil k!"Shimacoptic" [0x03EC] .nil)) k!"Stigmagreek" [0x03DA] (.node (.node .nil k!"Tsecyrillic" [0x0426] .nil) k!"Twelveroman" [0x216B] (.node .nil k!"Uacutesmall" [0xF7FA] .nil))) k!"Ucircumflex" [0x00DB] (.node (.node (.node .nil k!"Ugravesmall" [0xF7F9] .nil) k!"Utildeacute" [0x1E78] (.node .nil k!"Utildebelow" [0x1E74] .nil)) k!"Vewarmenian" [0x054E] (.node (.node .nil k!"Wcircumflex" [0x0174] .nil) k!"Xeharmenian" [0x053D] (.node .nil k!"Yacutesmall" [0xF7FD] .nil)))) k!"Yatcyrillic" [0x0462] (.node (.node (.node (.node (.node .nil k!"Ycircumflex" [0x0176] .nil) k!"Zcaronsmall" [0xF6FF] .nil) k!"Zcircumflex" [0x1E90] (.node .nil k!"Zhearmenian" [0x053A] .nil)) k!"Zhecyrillic" [0x0416] (.node (.node .nil k!"abreveacute" [0x1EAF] .nil) k!"abrevegrave" [0x1EB1] (.node .nil k!"abrevetilde" [0x1EB5] .nil))) k!"acircumflex" [0x00E2] (.node (.node (.node .nil k!"acutelowmod" [0x02CF] .nil) k!"aiecyrillic" [0x04D5] (.node .nil k!"angbopomofo" [0x3124] .nil)) k!"approxequal" [0x2248] (.node (.node .nil k!"araeakorean" [0x318D] .nil) k!"arrowdashup" [0x21E1] (.node .nil k!"arrowupleft" [0x2196] .nil))))) k!"arrowvertex" [0xF8E6] (.node (.node (.node (.node (.node (.node .nil k!"asciicircum" [0x005E] .nil) k!"atmonospace" [0xFF20] .nil) k!"aybarmenian" [0x0561] (.node .nil k!"benarmenian" [0x0562] .nil)) k!"bhagujarati" [0x0AAD] (.node (.node .nil k!"bhagurmukhi" [0x0A2D] .nil) k!"blackcircle" [0x25CF] (.node .nil k!"blacksquare" [0x25A0] .nil))) k!"braceleftbt" [0xF8F3] (.node (.node (.node .nil k!"bracelefttp" [0xF8F1] .nil) k!"bracketleft" [0x005B] (.node .nil k!"ccircumflex" [0x0109] .nil)) k!"chaarmenian" [0x0579] (.node (.node .nil k!"chagujarati" [0x0A9B] .nil) k!"chagurmukhi" [0x0A1B] (.node .nil k!"checyrillic" [0x0447] .nil)))) k!"chochanthai" [0x0E08] (.node (.node (.node (.node .nil k!"chochoethai" [0x0E0C] .nil) k!"cieuckorean" [0x3148] (.node .nil k!"clickdental" [0x01C0] .nil)) k!"commaaccent" [0xF6C3] (.node (.node .nil k!"commaarabic" [0x060C] .nil) k!"daletdagesh" [0xFB33] (.node .nil k!"dalethebrew" [0x05D3] .nil))) k!"daletqamats" [0x05D3, 0x05B8] (.node (.node (.node .nil k!"daletqubuts" [0x05D3, 0x05BB] .nil) k!"dammaarabic" [0x064F] (.node .nil k!"dargahebrew" [0x05A7] .nil)) k!"dblgravecmb" [0x030F] (.node (.node .nil k!"dblintegral" [0x222C] .nil) k!"dblprimemod" [0x02BA] (.node .nil k!"ddagujarati" [0x0AA1] .nil)))))

/-- Part of `AGL`, codecs/agl.py. -/
def aglTree35 : GlyphTree :=
  .node (.node (.node (.node (.node (.node (.node .nil k!"ddhabengali" [0x09A2] .nil) k!"deleteright" [0x2326] .nil) k!"deltaturned" [0x018D] (.node .nil k!"dhagujarati" [0x0AA7] .nil)) k!"dhagurmukhi" [0x0A27] (.node (.node .nil k!"dieresiscmb" [0x0308] .nil) k!"djecyrillic" [0x0452] (.node .nil k!"dochadathai" [0x0E0E] .nil))) k!"dollarsmall" [0xFE69] (.node (.node (.node .nil k!"dotbelowcmb" [0x0323] .nil) k!"dotkatakana" [0x30FB] (.node .nil k!"downtackmod" [0x02D5] .nil)) k!"dzecyrillic" [0x0455] (.node (.node .nil k!"ecandradeva" [0x090D] .nil) k!"echarmenian" [0x0565] (.node .nil k!"ecircumflex" [0x00EA] .nil)))) k!"eightarabic" [0x0668] (.node (.node (.node (.node (.node .nil k!"eightcircle" [0x2467] .nil) k!"eightperiod" [0x248F] .nil) k!"elevenparen" [0x247E] (.node .nil k!"elevenroman" [0x217A] .nil)) k!"engbopomofo" [0x3125] (.node (.node .nil k!"eopenclosed" [0x029A] .nil) k!"equivalence" [0x2261] (.node .nil k!"etildebelow" [0x1E1B] .nil))) k!"exclamsmall" [0xF721] (.node (.node (.node .nil k!"existential" [0x2203] .nil) k!"ezhreversed" [0x01B9] (.node .nil k!"fathaarabic" [0x064E] .nil)) k!"feharmenian" [0x0586] (.node (.node .nil k!"fivebengali" [0x09EB] .nil) k!"fiveeighths" [0x215D] (.node .nil k!"fivepersian" [0x06F5] .nil))))) k!"fongmanthai" [0x0E4F] (.node (.node (.node (.node (.node (.node .nil k!"fourbengali" [0x09EA] .nil) k!"fourpersian" [0x06F4] .nil) k!"gcircumflex" [0x011D] (.node .nil k!"ghagujarati" [0x0A98] .nil)) k!"ghagurmukhi" [0x0A18] (.node (.node .nil k!"ghainarabic" [0x063A] .nil) k!"gimarmenian" [0x0563] (.node .nil k!"gimeldagesh" [0xFB32] .nil))) k!"gimelhebrew" [0x05D2] (.node (.node (.node .nil k!"gjecyrillic" [0x0453] .nil) k!"glottalstop" [0x0294] (.node .nil k!"gravelowmod" [0x02CE] .nil)) k!"haitusquare" [0x332A] (.node (.node .nil k!"hamzaarabic" [0x0621] .nil) k!"hatafqamats" [0x05B3] (.node .nil k!"hbrevebelow" [0x1E2B] .nil)))) k!"hcircumflex" [0x0125] (.node (.node (.node (.node .nil k!"hieuhkorean" [0x314E] .nil) k!"hiriqhebrew" [0x05B4] (.node .nil k!"holamhebrew" [0x05B9] .nil)) k!"hyphensmall" [0xFE63] (.node (.node .nil k!"icircumflex" [0x00EE] .nil) k!"ieungkorean" [0x3147] (.node .nil k!"iniarmenian" [0x056B] .nil))) k!"integraltop" [0x2320] (.node (.node (.node .nil k!"irigurmukhi" [0x0A72] .nil) k!"itildebelow" [0x1E2D] (.node .nil k!"jcircumflex" [0x0135] .nil)) k!"jhagujarati" [0x0A9D] (.node (.node .nil k!"jhagurmukhi" [0x0A1D] .nil) k!"kasraarabic" [0x0650] (.node .nil k!"keharmenian" [0x0584] .nil)))))

/-- Part of `AGL`, codecs/agl.py. -/
def aglTree36 : GlyphTree :=
  .node (.node (.node (.node (.node (.node (.node .nil k!"khacyrillic" [0x0445] .nil) k!"khagujarati" [0x0A96] .nil) k!"khagurmukhi" [0x0A16] (.node .nil k!"khokhaithai" [0x0E02] .nil)) k!"khokhonthai" [0x0E05] (.node (.node .nil k!"kjecyrillic" [0x045C] .nil) k!"kooposquare" [0x331E] (.node .nil k!"ksicyrillic" [0x046F] .nil))) k!"lameddagesh" [0xFB3C] (.node (.node (.node .nil k!"lamedhebrew" [0x05DC] .nil) k!"largecircle" [0x25EF] (.node .nil k!"ljecyrillic" [0x0459] .nil)) k!"llagujarati" [0x0AB3] (.node (.node .nil k!"lochulathai" [0x0E2C] .nil) k!"maqafhebrew" [0x05BE] (.node .nil k!"menarmenian" [0x0574] .nil)))) k!"mieumkorean" [0x3141] (.node (.node (.node (.node (.node .nil k!"minuscircle" [0x2296] .nil) k!"muchgreater" [0x226B] .nil) k!"munahhebrew" [0x05A3] (.node .nil k!"musicalnote" [0x266A] .nil)) k!"napostrophe" [0x0149] (.node (.node .nil k!"ngagujarati" [0x0A99] .nil) k!"ngagurmukhi" [0x0A19] (.node .nil k!"nieunkorean" [0x3134] .nil))) k!"ninebengali" [0x09EF] (.node (.node (.node .nil k!"ninepersian" [0x06F9] .nil) k!"njecyrillic" [0x045A] (.node .nil k!"nnagujarati" [0x0AA3] .nil)) k!"nnagurmukhi" [0x0A23] (.node (.node .nil k!"notcontains" [0x220C] .nil) k!"notparallel" [0x2226] (.node .nil k!"notprecedes" [0x2280] .nil))))) k!"notsucceeds" [0x2281] (.node (.node (.node (.node (.node (.node .nil k!"notsuperset" [0x2285] .nil) k!"nowarmenian" [0x0576] .nil) k!"nyagujarati" [0x0A9E] (.node .nil k!"nyagurmukhi" [0x0A1E] .nil)) k!"ocandradeva" [0x0911] (.node (.node .nil k!"ocircumflex" [0x00F4] .nil) k!"onegujarati" [0x0AE7] (.node .nil k!"onegurmukhi" [0x0A67] .nil))) k!"onehangzhou" [0x3021] (.node (.node (.node .nil k!"oneinferior" [0x2081] .nil) k!"oneoldstyle" [0xF731] (.node .nil k!"onesuperior" [0x00B9] .nil)) k!"ordfeminine" [0x00AA] (.node (.node .nil k!"oslashacute" [0x01FF] .nil) k!"otildeacute" [0x1E4D] (.node .nil k!"overlinecmb" [0x0305] .nil)))) k!"parenleftbt" [0xF8ED] (.node (.node (.node (.node .nil k!"parenleftex" [0xF8EC] .nil) k!"parenlefttp" [0xF8EB] (.node .nil k!"partialdiff" [0x2202] .nil)) k!"paseqhebrew" [0x05C0] (.node (.node .nil k!"patahhebrew" [0x05B7] .nil) k!"pazerhebrew" [0x05A1] (.node .nil k!"peezisquare" [0x333B] .nil))) k!"peharmenian" [0x057A] (.node (.node (.node .nil k!"periodsmall" [0xFE52] .nil) k!"perthousand" [0x2030] (.node .nil k!"phagujarati" [0x0AAB] .nil)) k!"phagurmukhi" [0x0A2B] (.node (.node .nil k!"phinthuthai" [0x0E3A] .nil) k!"phophanthai" [0x0E1E] (.node .nil k!"pieupkorean" [0x3142] .nil)))))

/-- Part of `AGL`, codecs/agl.py. -/
def aglTree37 : GlyphTree :=
  .node (.node (.node (.node (.node (.node (.node .nil k!"qadmahebrew" [0x05A8] .nil) k!"quarternote" [0x2669] .nil) k!"quoterightn" [0x0149] (.node .nil k!"quotesingle" [0x0027] .nil)) k!"reharmenian" [0x0580] (.node (.node .nil k!"reviahebrew" [0x0597] .nil) k!"rhookturned" [0x027B] (.node .nil k!"rieulkorean" [0x3139] .nil))) k!"rragurmukhi" [0x0A5C] (.node (.node (.node .nil k!"saraueethai" [0x0E37] .nil) k!"scircumflex" [0x015D] (.node .nil k!"segolhebrew" [0x05B6] .nil)) k!"seharmenian" [0x057D] (.node (.node .nil k!"sentisquare" [0x3322] .nil) k!"sentosquare" [0x3323] (.node .nil k!"sevenarabic" [0x0667] .nil)))) k!"sevencircle" [0x2466] (.node (.node (.node (.node (.node .nil k!"sevenperiod" [0x248E] .nil) k!"shaarmenian" [0x0577] .nil) k!"shacyrillic" [0x0448] (.node .nil k!"shademedium" [0x2592] .nil)) k!"shagujarati" [0x0AB6] (.node (.node .nil k!"shagurmukhi" [0x0A36] .nil) k!"sheenarabic" [0x0634] (.node .nil k!"shevahebrew" [0x05B0] .nil))) k!"shimacoptic" [0x03ED] (.node (.node (.node .nil k!"shinshindot" [0xFB2A] .nil) k!"siluqhebrew" [0x05BD] (.node .nil k!"sixgujarati" [0x0AEC] .nil)) k!"sixgurmukhi" [0x0A6C] (.node (.node .nil k!"sixhangzhou" [0x3026] .nil) k!"sixinferior" [0x2086] (.node .nil k!"sixoldstyle" [0xF736] .nil))))) k!"sixsuperior" [0x2076] (.node (.node (.node (.node (.node (.node .nil k!"ssagujarati" [0x0AB7] .nil) k!"sukunarabic" [0x0652] .nil) k!"tcheharabic" [0x0686] (.node .nil k!"tevirhebrew" [0x059B] .nil)) k!"thagujarati" [0x0AA5] (.node (.node .nil k!"thagurmukhi" [0x0A25] .nil) k!"thereexists" [0x2203] (.node .nil k!"thothanthai" [0x0E10] .nil))) k!"threearabic" [0x0663] (.node (.node (.node .nil k!"threecircle" [0x2462] .nil) k!"threeperiod" [0x248A] (.node .nil k!"timescircle" [0x2297] .nil)) k!"topatakthai" [0x0E0F] (.node (.node .nil k!"tsadidagesh" [0xFB46] .nil) k!"tsadihebrew" [0x05E6] (.node .nil k!"tsecyrillic" [0x0446] .nil)))) k!"tserehebrew" [0x05B5] (.node (.node (.node (.node .nil k!"ttagujarati" [0x0A9F] .nil) k!"ttagurmukhi" [0x0A1F] (.node .nil k!"tthabengali" [0x09A0] .nil)) k!"twelveparen" [0x247F] (.node (.node .nil k!"twelveroman" [0x217B] .nil) k!"twentyparen" [0x2487] (.node .nil k!"twogujarati" [0x0AE8] .nil))) k!"twogurmukhi" [0x0A68] (.node (.node (.node .nil k!"twohangzhou" [0x3022] .nil) k!"twoinferior" [0x2082] (.node .nil k!"twooldstyle" [0xF732] .nil)) k!"twosuperior" [0x00B2] (.node (.node .nil k!"ucircumflex" [0x00FB] .nil) k!"uragurmukhi" [0x0A73] (.node .nil k!"utildeacute" [0x1E79] .nil)))))

/-- Part of `AGL`, codecs/agl.py. -/
def aglTree38 : GlyphTree :=
  .node (.node (.node (.node (.node (.node (.node .nil k!"vavdagesh65" [0xFB35] .nil) k!"verticalbar" [0x007C] .nil) k!"vewarmenian" [0x057E] (.node .nil k!"visargadeva" [0x0903] .nil)) k!"wattosquare" [0x3357] (.node (.node .nil k!"wcircumflex" [0x0175] .nil) k!"weierstrass" [0x2118] (.node .nil k!"whitebullet" [0x25E6] .nil))) k!"whitecircle" [0x25CB] (.node (.node (.node .nil k!"whitesquare" [0x25A1] .nil) k!"xeharmenian" [0x056D] (.node .nil k!"yaadosquare" [0x334E] .nil)) k!"yatcyrillic" [0x0463] (.node (.node .nil k!"ycircumflex" [0x0177] .nil) k!"yetivhebrew" [0x059A] (.node .nil k!"yoyaekorean" [0x3188] .nil)))) k!"yuyeokorean" [0x318A] (.node (.node (.node (.node (.node .nil k!"zarqahebrew" [0x0598] .nil) k!"zayindagesh" [0xFB36] .nil) k!"zayinhebrew" [0x05D6] (.node .nil k!"zcircumflex" [0x1E91] .nil)) k!"zerobengali" [0x09E6] (.node (.node .nil k!"zeropersian" [0x06F0] .nil) k!"zhearmenian" [0x056A] (.node .nil k!"zhecyrillic" [0x0436] .nil))) k!"zinorhebrew" [0x05AE] (.node (.node (.node .nil k!"Cedillasmall" [0xF7B8] .nil) k!"Cheharmenian" [0x0543] (.node .nil k!"Digammagreek" [0x03DC] .nil)) k!"Dzhecyrillic" [0x040F] (.node (.node .nil k!"Emacronacute" [0x1E16] .nil) k!"Emacrongrave" [0x1E14] (.node .nil k!"Epsilontonos" [0x0388] .nil))))) k!"Fitacyrillic" [0x0472] (.node (.node (.node (.node (.node (.node .nil k!"Gammaafrican" [0x0194] .nil) k!"Gangiacoptic" [0x03EA] .nil) k!"Gcommaaccent" [0x0122] (.node .nil k!"Ghadarmenian" [0x0542] .nil)) k!"Hungarumlaut" [0xF6CF] (.node (.node .nil k!"Iotadieresis" [0x03AA] .nil) k!"Jheharmenian" [0x054B] (.node .nil k!"Kcommaaccent" [0x0136] .nil))) k!"Lcommaaccent" [0x013B] (.node (.node (.node .nil k!"Liwnarmenian" [0x053C] .nil) k!"Ncommaaccent" [0x0145] (.node .nil k!"Omacronacute" [0x1E52] .nil)) k!"Omacrongrave" [0x1E50] (.node (.node .nil k!"Omicrontonos" [0x038C] .nil) k!"Ostrokeacute" [0x01FE] (.node .nil k!"Piwrarmenian" [0x0553] .nil)))) k!"Rcommaaccent" [0x0156] (.node (.node (.node (.node .nil k!"Scommaaccent" [0x0218] .nil) k!"Shhacyrillic" [0x04BA] (.node .nil k!"Tcommaaccent" [0x0162] .nil)) k!"Tiwnarmenian" [0x054F] (.node (.node .nil k!"Tshecyrillic" [0x040B] .nil) k!"Upsilontonos" [0x038E] (.node .nil k!"Yericyrillic" [0x042B] .nil))) k!"Yiwnarmenian" [0x0552] (.node (.node (.node .nil k!"acutetonecmb" [0x0341] .nil) k!"anudattadeva" [0x0952] (.node .nil k!"anusvaradeva" [0x0902] .nil)) k!"apaatosquare" [0x3300] (.node (.node .nil k!"araeaekorean" [0x318E] .nil) k!"arrowdblboth" [0x21D4] (.node .nil k!"arrowdbldown" [0x21D3] .nil)))))

/-- Part of `AGL`, codecs/agl.py. -/
def aglTree39 : GlyphTree :=
  .node (.node (.node (.node (.node (.node (.node .nil k!"arrowhorizex" [0xF8E7] .nil) k!"arrowleftdbl" [0x21D0] .nil) k!"arrowtableft" [0x21E4] (.node .nil k!"arrowupdnbse" [0x21A8] .nil)) k!"arrowupright" [0x2197] (.node (.node .nil k!"arrowupwhite" [0x21E7] .nil) k!"asteriskmath" [0x2217] (.node .nil k!"avagrahadeva" [0x093D] .nil))) k!"barmonospace" [0xFF5C] (.node (.node (.node .nil k!"blackdiamond" [0x25C6] .nil) k!"bobaimaithai" [0x0E1A] (.node .nil k!"braceleftmid" [0xF8F2] .nil)) k!"bracerightbt" [0xF8FE] (.node (.node .nil k!"bracerighttp" [0xF8FC] .nil) k!"bracketright" [0x005D] (.node .nil k!"centinferior" [0xF6DF] .nil)))) k!"centoldstyle" [0xF7A2] (.node (.node (.node (.node (.node .nil k!"centsuperior" [0xF6E0] .nil) k!"cheharmenian" [0x0573] .nil) k!"chochangthai" [0x0E0A] (.node .nil k!"chochingthai" [0x0E09] .nil)) k!"clicklateral" [0x01C1] (.node (.node .nil k!"dageshhebrew" [0x05BC] .nil) k!"dblarrowleft" [0x21D4] (.node .nil k!"ddhagujarati" [0x0AA2] .nil))) k!"ddhagurmukhi" [0x0A22] (.node (.node (.node .nil k!"dotaccentcmb" [0x0307] .nil) k!"dotbelowcomb" [0x0323] (.node .nil k!"dottedcircle" [0x25CC] .nil)) k!"dzhecyrillic" [0x045F] (.node (.node .nil k!"eightbengali" [0x09EE] .nil) k!"eightpersian" [0x06F8] (.node .nil k!"elevencircle" [0x246A] .nil))))) k!"elevenperiod" [0x2492] (.node (.node (.node (.node (.node (.node .nil k!"emacronacute" [0x1E17] .nil) k!"emacrongrave" [0x1E15] .nil) k!"epsilontonos" [0x03AD] (.node .nil k!"fifteenparen" [0x2482] .nil)) k!"fitacyrillic" [0x0473] (.node (.node .nil k!"fivegujarati" [0x0AEB] .nil) k!"fivegurmukhi" [0x0A6B] (.node .nil k!"fivehangzhou" [0x3025] .nil))) k!"fiveinferior" [0x2085] (.node (.node (.node .nil k!"fiveoldstyle" [0xF735] .nil) k!"fivesuperior" [0x2075] (.node .nil k!"fourgujarati" [0x0AEA] .nil)) k!"fourgurmukhi" [0x0A6A] (.node (.node .nil k!"fourhangzhou" [0x3024] .nil) k!"fourinferior" [0x2084] (.node .nil k!"fouroldstyle" [0xF734] .nil)))) k!"foursuperior" [0x2074] (.node (.node (.node (.node .nil k!"gangiacoptic" [0x03EB] .nil) k!"gcommaaccent" [0x0123] (.node .nil k!"gereshhebrew" [0x05F3] .nil)) k!"ghadarmenian" [0x0572] (.node (.node .nil k!"ghhagurmukhi" [0x0A5A] .nil) k!"gravetonecmb" [0x0340] (.node .nil k!"greaterequal" [0x2265] .nil))) k!"greatersmall" [0xFE65] (.node (.node (.node .nil k!"guramusquare" [0x3318] .nil) k!"hangulfiller" [0x3164] (.node .nil k!"hatafpatah16" [0x05B2] .nil)) k!"hatafpatah23" [0x05B2] (.node (.node .nil k!"hatafpatah2f" [0x05B2] .nil) k!"hatafsegol17" [0x05B1] (.node .nil k!"hatafsegol24" [0x05B1] .nil)))))

/-- Part of `AGL`, codecs/agl.py. -/
def aglTree40 : GlyphTree :=
  .node (.node (.node (.node (.node (.node (.node .nil k!"herutusquare" [0x3339] .nil) k!"honokhukthai" [0x0E2E] .nil) k!"huiitosquare" [0x3333] (.node .nil k!"hungarumlaut" [0x02DD] .nil)) k!"intersection" [0x2229] (.node (.node .nil k!"invsmileface" [0x263B] .nil) k!"iotadieresis" [0x03CA] (.node .nil k!"jcrossedtail" [0x029D] .nil))) k!"jheharmenian" [0x057B] (.node (.node (.node .nil k!"kcommaaccent" [0x0137] .nil) k!"kgreenlandic" [0x0138] (.node .nil k!"khhagurmukhi" [0x0A59] .nil)) k!"khokhuatthai" [0x0E03] (.node (.node .nil k!"khokhwaithai" [0x0E04] .nil) k!"kiyeokkorean" [0x3131] (.node .nil k!"lambdastroke" [0x019B] .nil)))) k!"lcommaaccent" [0x013C] (.node (.node (.node (.node (.node .nil k!"liwnarmenian" [0x056C] .nil) k!"lmiddletilde" [0x026B] .nil) k!"lvocalicdeva" [0x090C] (.node .nil k!"macronlowmod" [0x02CD] .nil)) k!"maiyamokthai" [0x0E46] (.node (.node .nil k!"mcubedsquare" [0x33A5] .nil) k!"merkhahebrew" [0x05A5] (.node .nil k!"moverssquare" [0x33A7] .nil))) k!"mvmegasquare" [0x33B9] (.node (.node (.node .nil k!"mwmegasquare" [0x33BF] .nil) k!"ncommaaccent" [0x0146] (.node .nil k!"nikhahitthai" [0x0E4D] .nil)) k!"ninegujarati" [0x0AEF] (.node (.node .nil k!"ninegurmukhi" [0x0A6F] .nil) k!"ninehangzhou" [0x3029] (.node .nil k!"nineinferior" [0x2089] .nil))))) k!"nineoldstyle" [0xF739] (.node (.node (.node (.node (.node (.node .nil k!"ninesuperior" [0x2079] .nil) k!"notelementof" [0x2209] .nil) k!"notidentical" [0x2262] (.node .nil k!"nuktabengali" [0x09BC] .nil)) k!"omacronacute" [0x1E53] (.node (.node .nil k!"omacrongrave" [0x1E51] .nil) k!"omicrontonos" [0x03CC] (.node .nil k!"onemonospace" [0xFF11] .nil))) k!"ordmasculine" [0x00BA] (.node (.node (.node .nil k!"ostrokeacute" [0x01FF] .nil) k!"overlinewavy" [0xFE4B] (.node .nil k!"paampssquare" [0x3380] .nil)) k!"parenrightbt" [0xF8F8] (.node (.node .nil k!"parenrightex" [0xF8F7] .nil) k!"parenrighttp" [0xF8F6] (.node .nil k!"pashtahebrew" [0x0599] .nil)))) k!"perafehebrew" [0xFB4E] (.node (.node (.node (.node .nil k!"percentsmall" [0xFE6A] .nil) k!"phophungthai" [0x0E1C] (.node .nil k!"piwrarmenian" [0x0583] .nil)) k!"plusbelowcmb" [0x031F] (.node (.node .nil k!"plussuperior" [0x207A] .nil) k!"prescription" [0x211E] (.node .nil k!"propersubset" [0x2282] .nil))) k!"proportional" [0x221D] (.node (.node (.node .nil k!"qamatshebrew" [0x05B8] .nil) k!"qubutshebrew" [0x05BB] (.node .nil k!"questiondown" [0x00BF] .nil)) k!"quotedblbase" [0x201E] (.node (.node .nil k!"quotedblleft" [0x201C] .nil) k!"rcommaaccent" [0x0157] (.node .nil k!"reflexsubset" [0x2286] .nil)))))

/-- Part of `AGL`, codecs/agl.py. -/
def aglTree41 : GlyphTree :=
  .node (.node (.node (.node (.node (.node (.node .nil k!"ringbelowcmb" [0x0325] .nil) k!"ringhalfleft" [0x02BF] .nil) k!"rvocalicdeva" [0x090B] (.node .nil k!"samekhdagesh" [0xFB41] .nil)) k!"samekhhebrew" [0x05E1] (.node (.node .nil k!"scommaaccent" [0x0219] .nil) k!"sevenbengali" [0x09ED] (.node .nil k!"seveneighths" [0x215E] .nil))) k!"sevenpersian" [0x06F7] (.node (.node (.node .nil k!"shaddaarabic" [0x0651] .nil) k!"sheqelhebrew" [0x20AA] (.node .nil k!"shhacyrillic" [0x04BB] .nil)) k!"sindothebrew" [0x05C2] (.node (.node .nil k!"sixmonospace" [0xFF16] .nil) k!"sixteenparen" [0x2483] (.node .nil k!"tcommaaccent" [0x0163] .nil)))) k!"thothongthai" [0x0E18] (.node (.node (.node (.node (.node .nil k!"thothungthai" [0x0E16] .nil) k!"threebengali" [0x09E9] .nil) k!"threeeighths" [0x215C] (.node .nil k!"threepersian" [0x06F3] .nil)) k!"tikeutkorean" [0x3137] (.node (.node .nil k!"tipehahebrew" [0x0596] .nil) k!"tiwnarmenian" [0x057F] (.node .nil k!"tpalatalhook" [0x01AB] .nil))) k!"tshecyrillic" [0x045B] (.node (.node (.node .nil k!"tthagujarati" [0x0AA0] .nil) k!"tthagurmukhi" [0x0A20] (.node .nil k!"twelvecircle" [0x246B] .nil)) k!"twelveperiod" [0x2493] (.node (.node .nil k!"twentycircle" [0x2473] .nil) k!"twentyperiod" [0x249B] (.node .nil k!"twodotleader" [0x2025] .nil))))) k!"twomonospace" [0xFF12] (.node (.node (.node (.node (.node (.node .nil k!"upsilonlatin" [0x028A] .nil) k!"upsilontonos" [0x03CD] .nil) k!"vavvavhebrew" [0x05F0] (.node .nil k!"vavyodhebrew" [0x05F1] .nil)) k!"whitediamond" [0x25C7] (.node (.node .nil k!"wonmonospace" [0xFFE6] .nil) k!"yamakkanthai" [0x0E4E] (.node .nil k!"yenmonospace" [0xFFE5] .nil))) k!"yericyrillic" [0x044B] (.node (.node (.node .nil k!"yiwnarmenian" [0x0582] .nil) k!"yodyodhebrew" [0x05F2] (.node .nil k!"zerogujarati" [0x0AE6] .nil)) k!"zerogurmukhi" [0x0A66] (.node (.node .nil k!"zeroinferior" [0x2080] .nil) k!"zerooldstyle" [0xF730] (.node .nil k!"zerosuperior" [0x2070] .nil)))) k!"Ccedillaacute" [0x1E08] (.node (.node (.node (.node .nil k!"Ccedillasmall" [0xF7E7] .nil) k!"DieresisAcute" [0xF6CC] (.node .nil k!"DieresisGrave" [0xF6CD] .nil)) k!"Dieresissmall" [0xF7A8] (.node (.node .nil k!"Ecedillabreve" [0x1E1C] .nil) k!"Enghecyrillic" [0x04A4] (.node .nil k!"Koppacyrillic" [0x0480] .nil))) k!"Ohorndotbelow" [0x1EE2] (.node (.node (.node .nil k!"Ohungarumlaut" [0x0150] .nil) k!"Omegacyrillic" [0x0460] (.node .nil k!"Oogonekmacron" [0x01EC] .nil)) k!"Schwacyrillic" [0x04D8] (.node (.node .nil k!"Shchacyrillic" [0x0429] .nil) k!"Tetsecyrillic" [0x04B4] (.node .nil k!"Uhorndotbelow" [0x1EF0] .nil)))))

/-- Part of `AGL`, codecs/agl.py. -/
def aglTree42 : GlyphTree :=
  .node (.node (.node (.node (.node (.node (.node .nil k!"acutebelowcmb" [0x0317] .nil) k!"addakgurmukhi" [0x0A71] .nil) k!"apostrophemod" [0x02BC] (.node .nil k!"arrowdashdown" [0x21E3] .nil)) k!"arrowdashleft" [0x21E0] (.node (.node .nil k!"arrowdblright" [0x21D2] .nil) k!"arrowdownleft" [0x2199] (.node .nil k!"arrowtabright" [0x21E5] .nil))) k!"ascriptturned" [0x0252] (.node (.node (.node .nil k!"asterisksmall" [0xFE61] .nil) k!"betrafehebrew" [0xFB4C] (.node .nil k!"bilabialclick" [0x0298] .nil)) k!"bindigurmukhi" [0x0A02] (.node (.node .nil k!"bracerightmid" [0xF8FD] .nil) k!"bracketleftbt" [0xF8F0] (.node .nil k!"bracketleftex" [0xF8EF] .nil)))) k!"bracketlefttp" [0xF8EE] (.node (.node (.node (.node (.node .nil k!"brevebelowcmb" [0x032E] .nil) k!"bulletinverse" [0x25D8] .nil) k!"caronbelowcmb" [0x032C] (.node .nil k!"ccedillaacute" [0x1E09] .nil)) k!"centmonospace" [0xFFE0] (.node (.node .nil k!"chieuchkorean" [0x314A] .nil) k!"circumflexcmb" [0x0302] (.node .nil k!"clickalveolar" [0x01C2] .nil))) k!"clubsuitblack" [0x2663] (.node (.node (.node .nil k!"clubsuitwhite" [0x2667] .nil) k!"cmcubedsquare" [0x33A4] (.node .nil k!"colonmonetary" [0x20A1] .nil)) k!"commaabovecmb" [0x0313] (.node (.node .nil k!"commaarmenian" [0x055D] .nil) k!"commainferior" [0xF6E1] (.node .nil k!"commasuperior" [0xF6E2] .nil))))) k!"copyrightsans" [0xF8E9] (.node (.node (.node (.node (.node (.node .nil k!"coverkgsquare" [0x33C6] .nil) k!"dblarrowright" [0x21D2] .nil) k!"dbllowlinecmb" [0x0333] (.node .nil k!"dieresisacute" [0xF6D7] .nil)) k!"dieresisgrave" [0xF6D8] (.node (.node .nil k!"dieresistonos" [0x0385] .nil) k!"divisionslash" [0x2215] (.node .nil k!"ecedillabreve" [0x1E1D] .nil))) k!"eighteenparen" [0x2485] (.node (.node (.node .nil k!"eightgujarati" [0x0AEE] .nil) k!"eightgurmukhi" [0x0A6E] (.node .nil k!"eighthangzhou" [0x3028] .nil)) k!"eightinferior" [0x2088] (.node (.node .nil k!"eightoldstyle" [0xF738] .nil) k!"eightsuperior" [0x2078] (.node .nil k!"enghecyrillic" [0x04A5] .nil)))) k!"eopenreversed" [0x025C] (.node (.node (.node (.node .nil k!"equalsuperior" [0x207C] .nil) k!"etnahtahebrew" [0x0591] (.node .nil k!"fifteencircle" [0x246E] .nil)) k!"fifteenperiod" [0x2496] (.node (.node .nil k!"finalkafsheva" [0x05DA, 0x05B0] .nil) k!"finalpehebrew" [0x05E3] (.node .nil k!"fivemonospace" [0xFF15] .nil))) k!"fourmonospace" [0xFF14] (.node (.node (.node .nil k!"fourteenparen" [0x2481] .nil) k!"gammasuperior" [0x02E0] (.node .nil k!"gravebelowcmb" [0x0316] .nil)) k!"greaterorless" [0x2277] (.node (.node .nil k!"guillemotleft" [0x00AB] .nil) k!"guilsinglleft" [0x2039] (.node .nil k!"hatafqamats1b" [0x05B3] .nil)))))

/-- Part of `AGL`, codecs/agl.py. -/
def aglTree43 : GlyphTree :=
  .node (.node (.node (.node (.node (.node (.node .nil k!"hatafqamats34" [0x05B3] .nil) k!"hhooksuperior" [0x02B1] .nil) k!"hookabovecomb" [0x0309] (.node .nil k!"horizontalbar" [0x2015] .nil)) k!"issharbengali" [0x09FA] (.node (.node .nil k!"kafrafehebrew" [0xFB4D] .nil) k!"karoriisquare" [0x330D] (.node .nil k!"khieukhkorean" [0x314B] .nil))) k!"kmcubedsquare" [0x33A6] (.node (.node (.node .nil k!"koppacyrillic" [0x0481] .nil) k!"lessmonospace" [0xFF1C] (.node .nil k!"lessorgreater" [0x2276] .nil)) k!"lessoverequal" [0x2266] (.node (.node .nil k!"llvocalicdeva" [0x0961] .nil) k!"lowlinedashed" [0xFE4D] (.node .nil k!"maitaikhuthai" [0x0E47] .nil)))) k!"mansyonsquare" [0x3347] (.node (.node (.node (.node (.node .nil k!"meetorusquare" [0x334D] .nil) k!"minusbelowcmb" [0x0320] .nil) k!"mmcubedsquare" [0x33A3] (.node .nil k!"musicflatsign" [0x266D] .nil)) k!"newsheqelsign" [0x20AA] (.node (.node .nil k!"ninemonospace" [0xFF19] .nil) k!"nineteenparen" [0x2486] (.node .nil k!"nlegrightlong" [0x019E] .nil))) k!"nuktagujarati" [0x0ABC] (.node (.node (.node .nil k!"nuktagurmukhi" [0x0A3C] .nil) k!"ohorndotbelow" [0x1EE3] (.node .nil k!"ohungarumlaut" [0x0151] .nil)) k!"omegacyrillic" [0x0461] (.node (.node .nil k!"onehackarabic" [0x0661] .nil) k!"oogonekmacron" [0x01ED] (.node .nil k!"paiyannoithai" [0x0E2F] .nil))))) k!"pansioskorean" [0x317F] (.node (.node (.node (.node (.node (.node .nil k!"percentarabic" [0x066A] .nil) k!"perpendicular" [0x22A5] .nil) k!"phieuphkorean" [0x314D] (.node .nil k!"pisymbolgreek" [0x03D6] .nil)) k!"plusmonospace" [0xFF0B] (.node (.node .nil k!"primereversed" [0x2035] .nil) k!"prolongedkana" [0x30FC] (.node .nil k!"qofhatafpatah" [0x05E7, 0x05B2] .nil))) k!"qofhatafsegol" [0x05E7, 0x05B1] (.node (.node (.node .nil k!"questiongreek" [0x037E] .nil) k!"questionsmall" [0xF73F] (.node .nil k!"quotedblprime" [0x301E] .nil)) k!"quotedblright" [0x201D] (.node (.node .nil k!"quotereversed" [0x201B] .nil) k!"referencemark" [0x203B] (.node .nil k!"registerserif" [0xF6DA] .nil)))) k!"reversedtilde" [0x223D] (.node (.node (.node (.node .nil k!"revlogicalnot" [0x2310] .nil) k!"rhotichookmod" [0x02DE] (.node .nil k!"righttriangle" [0x22BF] .nil)) k!"ringhalfright" [0x02BE] (.node (.node .nil k!"rittorusquare" [0x3351] .nil) k!"rrvocalicdeva" [0x0960] (.node .nil k!"saraileftthai" [0xF885] .nil))) k!"schwacyrillic" [0x04D9] (.node (.node (.node .nil k!"segoltahebrew" [0x0592] .nil) k!"sevengujarati" [0x0AED] (.node .nil k!"sevengurmukhi" [0x0A6D] .nil)) k!"sevenhangzhou" [0x3027] (.node (.node .nil k!"seveninferior" [0x2087] .nil) k!"sevenoldstyle" [0xF737] (.node .nil k!"sevensuperior" [0x2077] .nil)))))

/-- Part of `AGL`, codecs/agl.py. -/
def aglTree44 : GlyphTree :=
  .node (.node (.node (.node (.node (.node (.node .nil k!"shindothebrew" [0x05C1] .nil) k!"sixhackarabic" [0x0666] .nil) k!"sixteencircle" [0x246F] (.node .nil k!"sixteenperiod" [0x2497] .nil)) k!"subsetorequal" [0x2286] (.node (.node .nil k!"tatweelarabic" [0x0640] .nil) k!"tetsecyrillic" [0x04B5] (.node .nil k!"thieuthkorean" [0x314C] .nil))) k!"thirteenparen" [0x2480] (.node (.node (.node .nil k!"thothahanthai" [0x0E17] .nil) k!"threegujarati" [0x0AE9] (.node .nil k!"threegurmukhi" [0x0A69] .nil)) k!"threehangzhou" [0x3023] (.node (.node .nil k!"threeinferior" [0x2083] .nil) k!"threeoldstyle" [0xF733] (.node .nil k!"threequarters" [0x00BE] .nil)))) k!"threesuperior" [0x00B3] (.node (.node (.node (.node (.node .nil k!"tildebelowcmb" [0x0330] .nil) k!"tildeoperator" [0x223C] .nil) k!"tippigurmukhi" [0x0A70] (.node .nil k!"tonebarlowmod" [0x02E8] .nil)) k!"tonebarmidmod" [0x02E7] (.node (.node .nil k!"trademarksans" [0xF8EA] .nil) k!"twohackarabic" [0x0662] (.node .nil k!"uhorndotbelow" [0x1EF1] .nil))) k!"uhungarumlaut" [0x0171] (.node (.node (.node .nil k!"underscoredbl" [0x2017] .nil) k!"viramabengali" [0x09CD] (.node .nil k!"ypogegrammeni" [0x037A] .nil)) k!"zeromonospace" [0xFF10] (.node (.node .nil k!"Abrevecyrillic" [0x04D0] .nil) k!"Abrevedotbelow" [0x1EB6] (.node .nil k!"Adieresissmall" [0xF7E4] .nil))))) k!"Ainvertedbreve" [0x0202] (.node (.node (.node (.node (.node (.node .nil k!"Dotaccentsmall" [0xF6F7] .nil) k!"Edieresissmall" [0xF7EB] .nil) k!"Einvertedbreve" [0x0206] (.node .nil k!"Enhookcyrillic" [0x04C7] .nil)) k!"Idieresisacute" [0x1E2E] (.node (.node .nil k!"Idieresissmall" [0xF7EF] .nil) k!"Iinvertedbreve" [0x020A] (.node .nil k!"Kahookcyrillic" [0x04C3] .nil))) k!"Ocenteredtilde" [0x019F] (.node (.node (.node .nil k!"Odieresissmall" [0xF7F6] .nil) k!"Ohornhookabove" [0x1EDE] (.node .nil k!"Oinvertedbreve" [0x020E] .nil)) k!"Otildedieresis" [0x1E4E] (.node (.node .nil k!"Rinvertedbreve" [0x0212] .nil) k!"Rsmallinverted" [0x0281] (.node .nil k!"Tretroflexhook" [0x01AE] .nil)))) k!"Udieresisacute" [0x01D7] (.node (.node (.node (.node .nil k!"Udieresisbelow" [0x1E72] .nil) k!"Udieresiscaron" [0x01D9] (.node .nil k!"Udieresisgrave" [0x01DB] .nil)) k!"Udieresissmall" [0xF7FC] (.node (.node .nil k!"Uhornhookabove" [0x1EEC] .nil) k!"Uinvertedbreve" [0x0216] (.node .nil k!"Upsilonafrican" [0x01B1] .nil))) k!"Ushortcyrillic" [0x040E] (.node (.node (.node .nil k!"Ydieresissmall" [0xF7FF] .nil) k!"Yusbigcyrillic" [0x046A] (.node .nil k!"abrevecyrillic" [0x04D1] .nil)) k!"abrevedotbelow" [0x1EB7] (.node (.node .nil k!"ainfinalarabic" [0xFECA] .nil) k!"ainvertedbreve" [0x0203] (.node .nil k!"ampersandsmall" [0xF726] .nil)))))

/-- Part of `AGL`, codecs/agl.py. -/
def aglTree45 : GlyphTree :=
  .node (.node (.node (.node (.node (.node (.node .nil k!"arighthalfring" [0x1E9A] .nil) k!"arrowdashright" [0x21E2] .nil) k!"arrowdownright" [0x2198] (.node .nil k!"arrowdownwhite" [0x21E9] .nil)) k!"arrowheadupmod" [0x02C4] (.node (.node .nil k!"arrowleftwhite" [0x21E6] .nil) k!"asmallhiragana" [0x3041] (.node .nil k!"asmallkatakana" [0x30A1] .nil))) k!"asteriskarabic" [0x066D] (.node (.node (.node .nil k!"behfinalarabic" [0xFE90] .nil) k!"blackrectangle" [0x25AC] (.node .nil k!"braceleftsmall" [0xFE5B] .nil)) k!"bracketrightbt" [0xF8FB] (.node (.node .nil k!"bracketrightex" [0xF8FA] .nil) k!"bracketrighttp" [0xF8F9] (.node .nil k!"bridgebelowcmb" [0x032A] .nil)))) k!"bulletoperator" [0x2219] (.node (.node (.node (.node (.node .nil k!"candrabinducmb" [0x0310] .nil) k!"carriagereturn" [0x21B5] .nil) k!"circlemultiply" [0x2297] (.node .nil k!"clickretroflex" [0x01C3] .nil)) k!"colonmonospace" [0xFF1A] (.node (.node .nil k!"commamonospace" [0xFF0C] .nil) k!"commaturnedmod" [0x02BB] (.node .nil k!"copyrightserif" [0xF6D9] .nil))) k!"dadfinalarabic" [0xFEBE] (.node (.node (.node .nil k!"dalfinalarabic" [0xFEAA] .nil) k!"dammalowarabic" [0x064F] (.node .nil k!"dammatanarabic" [0x064C] .nil)) k!"dbloverlinecmb" [0x033F] (.node (.node .nil k!"dblverticalbar" [0x2016] .nil) k!"dialytikatonos" [0x0385] (.node .nil k!"dollarinferior" [0xF6E3] .nil))))) k!"dollaroldstyle" [0xF724] (.node (.node (.node (.node (.node (.node .nil k!"dollarsuperior" [0xF6E4] .nil) k!"doubleyodpatah" [0xFB1F] .nil) k!"eighteencircle" [0x2471] (.node .nil k!"eighteenperiod" [0x2499] .nil)) k!"eightmonospace" [0xFF18] (.node (.node .nil k!"einvertedbreve" [0x0207] .nil) k!"emdashvertical" [0xFE31] (.node .nil k!"endashvertical" [0xFE32] .nil))) k!"enhookcyrillic" [0x04C8] (.node (.node (.node .nil k!"equalmonospace" [0xFF1D] .nil) k!"esmallhiragana" [0x3047] (.node .nil k!"esmallkatakana" [0x30A7] .nil)) k!"evowelsigndeva" [0x0947] (.node (.node .nil k!"exclamarmenian" [0x055C] .nil) k!"fathalowarabic" [0x064E] (.node .nil k!"fathatanarabic" [0x064B] .nil)))) k!"fehfinalarabic" [0xFED2] (.node (.node (.node (.node .nil k!"finalkafdagesh" [0xFB3A] .nil) k!"finalkafhebrew" [0x05DA] (.node .nil k!"finalkafqamats" [0x05DA, 0x05B8] .nil)) k!"finalmemhebrew" [0x05DD] (.node (.node .nil k!"finalnunhebrew" [0x05DF] .nil) k!"fivehackarabic" [0x0665] (.node .nil k!"fourhackarabic" [0x0664] .nil))) k!"fourteencircle" [0x246D] (.node (.node (.node .nil k!"fourteenperiod" [0x2495] .nil) k!"gaffinalarabic" [0xFB93] (.node .nil k!"glottalstopmod" [0x02C0] .nil)) k!"gravemonospace" [0xFF40] (.node (.node .nil k!"guillemotright" [0x00BB] .nil) k!"guilsinglright" [0x203A] (.node .nil k!"haaltonearabic" [0x06C1] .nil)))))

/-- Part of `AGL`, codecs/agl.py. -/
def aglTree46 : GlyphTree :=
  .node (.node (.node (.node (.node (.node (.node .nil k!"halantgurmukhi" [0x0A4D] .nil) k!"hamzalowarabic" [0x0621] .nil) k!"heartsuitblack" [0x2665] (.node .nil k!"heartsuitwhite" [0x2661] .nil)) k!"hedageshhebrew" [0xFB34] (.node (.node .nil k!"hehfinalarabic" [0xFEEA] .nil) k!"hypheninferior" [0xF6E5] (.node .nil k!"hyphensuperior" [0xF6E6] .nil))) k!"idieresisacute" [0x1E2F] (.node (.node (.node .nil k!"iinvertedbreve" [0x020B] .nil) k!"imatragurmukhi" [0x0A3F] (.node .nil k!"integralbottom" [0x2321] .nil)) k!"ismallhiragana" [0x3043] (.node (.node .nil k!"ismallkatakana" [0x30A3] .nil) k!"ivowelsigndeva" [0x093F] (.node .nil k!"jdotlessstroke" [0x025F] .nil)))) k!"jehfinalarabic" [0xFB8B] (.node (.node (.node (.node (.node .nil k!"kaffinalarabic" [0xFEDA] .nil) k!"kahookcyrillic" [0x04C4] .nil) k!"kasratanarabic" [0x064D] (.node .nil k!"khorakhangthai" [0x0E06] .nil)) k!"lamfinalarabic" [0xFEDE] (.node (.node .nil k!"lhookretroflex" [0x026D] .nil) k!"macronbelowcmb" [0x0331] (.node .nil k!"mahapakhhebrew" [0x05A4] .nil))) k!"maihanakatthai" [0x0E31] (.node (.node (.node .nil k!"meizierasquare" [0x337E] .nil) k!"mlonglegturned" [0x0270] (.node .nil k!"musicalnotedbl" [0x266B] .nil)) k!"musicsharpsign" [0x266F] (.node (.node .nil k!"nhookretroflex" [0x0273] .nil) k!"ninehackarabic" [0x0669] (.node .nil k!"nineteencircle" [0x2472] .nil))))) k!"nineteenperiod" [0x249A] (.node (.node (.node (.node (.node (.node .nil k!"ohornhookabove" [0x1EDF] .nil) k!"oinvertedbreve" [0x020F] .nil) k!"onedotenleader" [0x2024] (.node .nil k!"osmallhiragana" [0x3049] .nil)) k!"osmallkatakana" [0x30A9] (.node (.node .nil k!"otildedieresis" [0x1E4F] .nil) k!"overlinedashed" [0xFE49] (.node .nil k!"ovowelsigndeva" [0x094B] .nil))) k!"paasentosquare" [0x332B] (.node (.node (.node .nil k!"parenleftsmall" [0xFE59] .nil) k!"pedageshhebrew" [0xFB44] (.node .nil k!"pehfinalarabic" [0xFB57] .nil)) k!"periodarmenian" [0x0589] (.node (.node .nil k!"periodcentered" [0x00B7] .nil) k!"periodinferior" [0xF6E7] (.node .nil k!"periodsuperior" [0xF6E8] .nil)))) k!"phisymbolgreek" [0x03D5] (.node (.node (.node (.node .nil k!"phosamphaothai" [0x0E20] .nil) k!"postalmarkface" [0x3020] (.node .nil k!"propersuperset" [0x2283] .nil)) k!"qaffinalarabic" [0xFED6] (.node (.node .nil k!"qofhiriqhebrew" [0x05E7, 0x05B4] .nil) k!"qofholamhebrew" [0x05E7, 0x05B9] (.node .nil k!"qofpatahhebrew" [0x05E7, 0x05B7] .nil))) k!"qofsegolhebrew" [0x05E7, 0x05B6] (.node (.node (.node .nil k!"qofshevahebrew" [0x05E7, 0x05B0] .nil) k!"qoftserehebrew" [0x05E7, 0x05B5] (.node .nil k!"questionarabic" [0x061F] .nil)) k!"quotesinglbase" [0x201A] (.node (.node .nil k!"radoverssquare" [0x33AE] .nil) k!"reflexsuperset" [0x2287] (.node .nil k!"rehfinalarabic" [0xFEAE] .nil)))))

/-- Part of `AGL`, codecs/agl.py. -/
def aglTree47 : GlyphTree :=
  .node (.node (.node (.node (.node (.node (.node .nil k!"reshhatafsegol" [0x05E8, 0x05B1] .nil) k!"rhosymbolgreek" [0x03F1] .nil) k!"rinvertedbreve" [0x0213] (.node .nil k!"rlonglegturned" [0x027A] .nil)) k!"sadfinalarabic" [0xFEBA] (.node (.node .nil k!"saraiileftthai" [0xF886] .nil) k!"saraueleftthai" [0xF887] (.node .nil k!"semicolonsmall" [0xFE54] .nil))) k!"sevenmonospace" [0xFF17] (.node (.node (.node .nil k!"seventeenparen" [0x2484] .nil) k!"slashmonospace" [0xFF0F] (.node .nil k!"slongdotaccent" [0x1E9B] .nil)) k!"sofpasuqhebrew" [0x05C3] (.node (.node .nil k!"spadesuitblack" [0x2660] .nil) k!"spadesuitwhite" [0x2664] (.node .nil k!"squarebelowcmb" [0x033B] .nil)))) k!"squaremsquared" [0x33A1] (.node (.node (.node (.node .nil k!"subsetnotequal" [0x228A] .nil) k!"tahfinalarabic" [0xFEC2] (.node .nil k!"tehfinalarabic" [0xFE96] .nil)) k!"telephoneblack" [0x260E] (.node (.node .nil k!"thirteencircle" [0x246C] .nil) k!"thirteenperiod" [0x2494] (.node .nil k!"thophuthaothai" [0x0E12] .nil))) k!"threemonospace" [0xFF13] (.node (.node (.node .nil k!"tildedoublecmb" [0x0360] .nil) k!"tonebarhighmod" [0x02E6] (.node .nil k!"trademarkserif" [0xF6DB] .nil)) k!"tretroflexhook" [0x0288] (.node (.node .nil k!"twentyhangzhou" [0x5344] .nil) k!"twodotenleader" [0x2025] (.node .nil k!"udieresisacute" [0x01D8] .nil))))) k!"udieresisbelow" [0x1E73] (.node (.node (.node (.node (.node (.node .nil k!"udieresiscaron" [0x01DA] .nil) k!"udieresisgrave" [0x01DC] .nil) k!"uhornhookabove" [0x1EED] (.node .nil k!"uinvertedbreve" [0x0217] .nil)) k!"umatragurmukhi" [0x0A41] (.node (.node .nil k!"underscorewavy" [0xFE4F] .nil) k!"upperdothebrew" [0x05C4] (.node .nil k!"uptackbelowcmb" [0x031D] .nil))) k!"ushortcyrillic" [0x045E] (.node (.node (.node .nil k!"usmallhiragana" [0x3045] .nil) k!"usmallkatakana" [0x30A5] (.node .nil k!"uvowelsigndeva" [0x0941] .nil)) k!"vavholamhebrew" [0xFB4B] (.node (.node .nil k!"vehfinalarabic" [0xFB6B] .nil) k!"viramagujarati" [0x0ACD] (.node .nil k!"visargabengali" [0x0983] .nil)))) k!"voicedmarkkana" [0x309B] (.node (.node (.node (.node .nil k!"wawfinalarabic" [0xFEEE] .nil) k!"whitetelephone" [0x260F] (.node .nil k!"yehfinalarabic" [0xFEF2] .nil)) k!"yesieungkorean" [0x3181] (.node (.node .nil k!"yusbigcyrillic" [0x046B] .nil) k!"zahfinalarabic" [0xFEC6] (.node .nil k!"zerohackarabic" [0x0660] .nil))) k!"zerowidthspace" [0x200B] (.node (.node (.node .nil k!"zretroflexhook" [0x0290] .nil) k!"Abrevehookabove" [0x1EB2] (.node .nil k!"Adieresismacron" [0x01DE] .nil)) k!"Circumflexsmall" [0xF6F6] (.node (.node .nil k!"Iebrevecyrillic" [0x04D6] .nil) k!"Iishortcyrillic" [0x0419] (.node .nil k!"Imacroncyrillic" [0x04E2] .nil)))))

/-- Part of `AGL`, codecs/agl.py. -/
def aglTree48 : GlyphTree :=
  .node (.node (.node (.node (.node (.node (.node .nil k!"Ldotbelowmacron" [0x1E38] .nil) k!"Obarredcyrillic" [0x04E8] .nil) k!"Rdotbelowmacron" [0x1E5C] (.node .nil k!"Sacutedotaccent" [0x1E64] .nil)) k!"Scarondotaccent" [0x1E66] (.node (.node .nil k!"Udieresismacron" [0x01D5] .nil) k!"Umacroncyrillic" [0x04EE] (.node .nil k!"Umacrondieresis" [0x1E7A] .nil))) k!"Upsilondieresis" [0x03AB] (.node (.node (.node .nil k!"aamatragurmukhi" [0x0A3E] .nil) k!"aavowelsigndeva" [0x093E] (.node .nil k!"abrevehookabove" [0x1EB3] .nil)) k!"adieresismacron" [0x01DF] (.node (.node .nil k!"aimatragurmukhi" [0x0A48] .nil) k!"ainmedialarabic" [0xFECC] (.node .nil k!"aivowelsigndeva" [0x0948] .nil)))) k!"aleffinalarabic" [0xFE8E] (.node (.node (.node (.node (.node .nil k!"aleflamedhebrew" [0xFB4F] .nil) k!"alefpatahhebrew" [0xFB2E] .nil) k!"anusvarabengali" [0x0982] (.node .nil k!"arrowrightheavy" [0x279E] .nil)) k!"arrowrightwhite" [0x21E8] (.node (.node .nil k!"arrowupdownbase" [0x21A8] .nil) k!"aumatragurmukhi" [0x0A4C] (.node .nil k!"auvowelsigndeva" [0x094C] .nil))) k!"behmedialarabic" [0xFE92] (.node (.node (.node .nil k!"betasymbolgreek" [0x03D0] .nil) k!"betdageshhebrew" [0xFB31] (.node .nil k!"bracerightsmall" [0xFE5C] .nil)) k!"candrabindudeva" [0x0901] (.node (.node .nil k!"cmsquaredsquare" [0x33A0] .nil) k!"contourintegral" [0x222E] (.node .nil k!"dadmedialarabic" [0xFEC0] .nil))))) k!"dalethatafpatah" [0x05D3, 0x05B2] (.node (.node (.node (.node (.node (.node .nil k!"dalethatafsegol" [0x05D3, 0x05B1] .nil) k!"dargalefthebrew" [0x05A7] .nil) k!"ddalfinalarabic" [0xFB89] (.node .nil k!"dollarmonospace" [0xFF04] .nil)) k!"ecandragujarati" [0x0A8D] (.node (.node .nil k!"echyiwnarmenian" [0x0587] .nil) k!"eematragurmukhi" [0x0A47] (.node .nil k!"eighthackarabic" [0x0668] .nil))) k!"ekonkargurmukhi" [0x0A74] (.node (.node (.node .nil k!"eshreversedloop" [0x01AA] .nil) k!"exclamdownsmall" [0xF7A1] (.node .nil k!"exclammonospace" [0xFF01] .nil)) k!"fehmedialarabic" [0xFED4] (.node (.node .nil k!"gafmedialarabic" [0xFB95] .nil) k!"gammalatinsmall" [0x0263] (.node .nil k!"gershayimhebrew" [0x05F4] .nil)))) k!"hahmedialarabic" [0xFEA4] (.node (.node (.node (.node .nil k!"hehaltonearabic" [0x06C1] .nil) k!"hehmedialarabic" [0xFEEC] (.node .nil k!"heiseierasquare" [0x337B] .nil)) k!"hekutaarusquare" [0x3336] (.node (.node .nil k!"hiriqwidehebrew" [0x05B4] .nil) k!"holamwidehebrew" [0x05B9] (.node .nil k!"hungarumlautcmb" [0x030B] .nil))) k!"hyphenmonospace" [0xFF0D] (.node (.node (.node .nil k!"ideographiczero" [0x3007] .nil) k!"iebrevecyrillic" [0x04D7] (.node .nil k!"iimatragurmukhi" [0x0A40] .nil)) k!"iishortcyrillic" [0x0439] (.node (.node .nil k!"iivowelsigndeva" [0x0940] .nil) k!"imacroncyrillic" [0x04E3] (.node .nil k!"izhitsacyrillic" [0x0475] .nil)))))

/-- Part of `AGL`, codecs/agl.py. -/
def aglTree49 : GlyphTree :=
  .node (.node (.node (.node (.node (.node (.node .nil k!"kafdageshhebrew" [0xFB3B] .nil) k!"kafmedialarabic" [0xFEDC] .nil) k!"kasmallkatakana" [0x30F5] (.node .nil k!"kesmallkatakana" [0x30F6] .nil)) k!"khahfinalarabic" [0xFEA6] (.node (.node .nil k!"kmsquaredsquare" [0x33A2] .nil) k!"lakkhangyaothai" [0x0E45] (.node .nil k!"lammedialarabic" [0xFEE0] .nil))) k!"ldotbelowmacron" [0x1E39] (.node (.node (.node .nil k!"lvocalicbengali" [0x098C] .nil) k!"macronmonospace" [0xFFE3] (.node .nil k!"maichattawathai" [0x0E4B] .nil)) k!"meemfinalarabic" [0xFEE2] (.node (.node .nil k!"memdageshhebrew" [0xFB3E] .nil) k!"mieumsioskorean" [0x316F] (.node .nil k!"miribaarusquare" [0x334A] .nil)))) k!"mmsquaredsquare" [0x339F] (.node (.node (.node (.node (.node .nil k!"munahlefthebrew" [0x05A3] .nil) k!"nieunsioskorean" [0x3167] .nil) k!"noonfinalarabic" [0xFEE6] (.node .nil k!"notlessnorequal" [0x2270] .nil)) k!"numbersignsmall" [0xFE5F] (.node (.node .nil k!"nundageshhebrew" [0xFB40] .nil) k!"obarredcyrillic" [0x04E9] (.node .nil k!"ocandragujarati" [0x0A91] .nil))) k!"oomatragurmukhi" [0x0A4B] (.node (.node (.node .nil k!"overlinedblwavy" [0xFE4C] .nil) k!"parenrightsmall" [0xFE5A] (.node .nil k!"patahwidehebrew" [0x05B7] .nil)) k!"pehmedialarabic" [0xFB59] (.node (.node .nil k!"periodhalfwidth" [0xFF61] .nil) k!"periodmonospace" [0xFF0E] (.node .nil k!"pieupsioskorean" [0x3144] .nil))))) k!"qafmedialarabic" [0xFED8] (.node (.node (.node (.node (.node (.node .nil k!"qofdageshhebrew" [0xFB47] .nil) k!"qofqamatshebrew" [0x05E7, 0x05B8] .nil) k!"qofqubutshebrew" [0x05E7, 0x05BB] (.node .nil k!"rdotbelowmacron" [0x1E5D] .nil)) k!"reshhiriqhebrew" [0x05E8, 0x05B4] (.node (.node .nil k!"reshholamhebrew" [0x05E8, 0x05B9] .nil) k!"reshpatahhebrew" [0x05E8, 0x05B7] (.node .nil k!"reshsegolhebrew" [0x05E8, 0x05B6] .nil))) k!"reshshevahebrew" [0x05E8, 0x05B0] (.node (.node (.node .nil k!"reshtserehebrew" [0x05E8, 0x05B5] .nil) k!"rieulsioskorean" [0x313D] (.node .nil k!"rrehfinalarabic" [0xFB8D] .nil)) k!"rturnedsuperior" [0x02B4] (.node (.node .nil k!"rvocalicbengali" [0x098B] .nil) k!"sacutedotaccent" [0x1E65] (.node .nil k!"sadmedialarabic" [0xFEBC] .nil)))) k!"saraueeleftthai" [0xF888] (.node (.node (.node (.node .nil k!"scarondotaccent" [0x1E67] .nil) k!"seagullbelowcmb" [0x033C] (.node .nil k!"seenfinalarabic" [0xFEB2] .nil)) k!"segolwidehebrew" [0x05B6] (.node (.node .nil k!"semicolonarabic" [0x061B] .nil) k!"sevenhackarabic" [0x0667] (.node .nil k!"seventeencircle" [0x2470] .nil))) k!"seventeenperiod" [0x2498] (.node (.node (.node .nil k!"shevawidehebrew" [0x05B0] .nil) k!"siluqlefthebrew" [0x05BD] (.node .nil k!"sioscieuckorean" [0x317E] .nil)) k!"siosnieunkorean" [0x317B] (.node (.node .nil k!"siosparenkorean" [0x3206] .nil) k!"siospieupkorean" [0x317D] (.node .nil k!"spacehackarabic" [0x0020] .nil)))))

/-- Part of `AGL`, codecs/agl.py. -/
def aglTree50 : GlyphTree :=
  .node (.node (.node (.node (.node (.node (.node .nil k!"ssangsioskorean" [0x3146] .nil) k!"supersetorequal" [0x2287] .nil) k!"syouwaerasquare" [0x337C] (.node .nil k!"tahmedialarabic" [0xFEC4] .nil)) k!"tavdageshhebrew" [0xFB4A] (.node (.node .nil k!"tehmedialarabic" [0xFE98] .nil) k!"tetdageshhebrew" [0xFB38] (.node .nil k!"tevirlefthebrew" [0x059B] .nil))) k!"thalfinalarabic" [0xFEAC] (.node (.node (.node .nil k!"thanthakhatthai" [0x0E4C] .nil) k!"thehfinalarabic" [0xFE9A] (.node .nil k!"threehackarabic" [0x0663] .nil)) k!"tildeoverlaycmb" [0x0334] (.node (.node .nil k!"tserewidehebrew" [0x05B5] .nil) k!"ttehfinalarabic" [0xFB67] (.node .nil k!"tusmallhiragana" [0x3063] .nil)))) k!"tusmallkatakana" [0x30C3] (.node (.node (.node (.node (.node .nil k!"udieresismacron" [0x01D6] .nil) k!"umacroncyrillic" [0x04EF] .nil) k!"umacrondieresis" [0x1E7B] (.node .nil k!"upsilondieresis" [0x03CB] .nil)) k!"uumatragurmukhi" [0x0A42] (.node (.node .nil k!"uuvowelsigndeva" [0x0942] .nil) k!"vavdageshhebrew" [0xFB35] (.node .nil k!"vehmedialarabic" [0xFB6D] .nil))) k!"verticallinemod" [0x02C8] (.node (.node (.node .nil k!"visargagujarati" [0x0A83] .nil) k!"wasmallhiragana" [0x308E] (.node .nil k!"wasmallkatakana" [0x30EE] .nil)) k!"yasmallhiragana" [0x3083] (.node (.node .nil k!"yasmallkatakana" [0x30E3] .nil) k!"yehbarreearabic" [0x06D2] (.node .nil k!"yehmedialarabic" [0xFEF4] .nil))))) k!"yoddageshhebrew" [0xFB39] (.node (.node (.node (.node (.node (.node .nil k!"yosmallhiragana" [0x3087] .nil) k!"yosmallkatakana" [0x30E7] .nil) k!"yusmallhiragana" [0x3085] (.node .nil k!"yusmallkatakana" [0x30E5] .nil)) k!"zahmedialarabic" [0xFEC8] (.node (.node .nil k!"zainfinalarabic" [0xFEB0] .nil) k!"zerowidthjoiner" [0xFEFF] (.node .nil k!"Acircumflexacute" [0x1EA4] .nil))) k!"Acircumflexgrave" [0x1EA6] (.node (.node (.node .nil k!"Acircumflexsmall" [0xF7E2] .nil) k!"Acircumflextilde" [0x1EAA] (.node .nil k!"Dcircumflexbelow" [0x1E12] .nil)) k!"Ecircumflexacute" [0x1EBE] (.node (.node .nil k!"Ecircumflexbelow" [0x1E18] .nil) k!"Ecircumflexgrave" [0x1EC0] (.node .nil k!"Ecircumflexsmall" [0xF7EA] .nil)))) k!"Ecircumflextilde" [0x1EC4] (.node (.node (.node (.node .nil k!"Hardsigncyrillic" [0x042A] .nil) k!"Icircumflexsmall" [0xF7EE] (.node .nil k!"Kastrokecyrillic" [0x049E] .nil)) k!"Lcircumflexbelow" [0x1E3C] (.node (.node .nil k!"Ncircumflexbelow" [0x1E4A] .nil) k!"Ocircumflexacute" [0x1ED0] (.node .nil k!"Ocircumflexgrave" [0x1ED2] .nil))) k!"Ocircumflexsmall" [0xF7F4] (.node (.node (.node .nil k!"Ocircumflextilde" [0x1ED6] .nil) k!"Softsigncyrillic" [0x042C] (.node .nil k!"Tcircumflexbelow" [0x1E70] .nil)) k!"Ucircumflexbelow" [0x1E76] (.node (.node .nil k!"Ucircumflexsmall" [0xF7FB] .nil) k!"Zhebrevecyrillic" [0x04C1] (.node .nil k!"acircumflexacute" [0x1EA5] .nil)))))

/-- Part of `AGL`, codecs/agl.py. -/
def aglTree51 : GlyphTree :=
  .node (.node (.node (.node (.node (.node (.node .nil k!"acircumflextilde" [0x1EAB] .nil) k!"aininitialarabic" [0xFECB] .nil) k!"alefdageshhebrew" [0xFB30] (.node .nil k!"alefqamatshebrew" [0xFB2F] .nil)) k!"anglebracketleft" [0x3008] (.node (.node .nil k!"anusvaragujarati" [0x0A82] .nil) k!"arrowheaddownmod" [0x02C5] (.node .nil k!"arrowheadleftmod" [0x02C2] .nil))) k!"ayinaltonehebrew" [0xFB20] (.node (.node (.node .nil k!"behinitialarabic" [0xFE91] .nil) k!"blacksmallsquare" [0x25AA] (.node .nil k!"blacksmilingface" [0x263B] .nil)) k!"breveinvertedcmb" [0x0311] (.node (.node .nil k!"cieucparenkorean" [0x3208] .nil) k!"circlepostalmark" [0x3036] (.node .nil k!"commareversedmod" [0x02BD] .nil)))) k!"dadinitialarabic" [0xFEBF] (.node (.node (.node (.node (.node .nil k!"dalethiriqhebrew" [0x05D3, 0x05B4] .nil) k!"daletholamhebrew" [0x05D3, 0x05B9] .nil) k!"daletpatahhebrew" [0x05D3, 0x05B7] (.node .nil k!"daletsegolhebrew" [0x05D3, 0x05B6] .nil)) k!"daletshevahebrew" [0x05D3, 0x05B0] (.node (.node .nil k!"dalettserehebrew" [0x05D3, 0x05B5] .nil) k!"dcircumflexbelow" [0x1E13] (.node .nil k!"diamondsuitwhite" [0x2662] .nil))) k!"dieresisbelowcmb" [0x0324] (.node (.node (.node .nil k!"downtackbelowcmb" [0x031E] .nil) k!"ecircumflexacute" [0x1EBF] (.node .nil k!"ecircumflexbelow" [0x1E19] .nil)) k!"ecircumflexgrave" [0x1EC1] (.node (.node .nil k!"ecircumflextilde" [0x1EC5] .nil) k!"eighthnotebeamed" [0x266B] (.node .nil k!"ellipsisvertical" [0x22EE] .nil))))) k!"eshsquatreversed" [0x0285] (.node (.node (.node (.node (.node (.node .nil k!"fehinitialarabic" [0xFED3] .nil) k!"finaltsadihebrew" [0x05E5] .nil) k!"firsttonechinese" [0x02C9] (.node .nil k!"gafinitialarabic" [0xFB94] .nil)) k!"ghainfinalarabic" [0xFECE] (.node (.node .nil k!"greatermonospace" [0xFF1E] .nil) k!"greateroverequal" [0x2267] (.node .nil k!"hahinitialarabic" [0xFEA3] .nil))) k!"hamzadammaarabic" [0x0621, 0x064F] (.node (.node (.node .nil k!"hamzafathaarabic" [0x0621, 0x064E] .nil) k!"hamzasukunarabic" [0x0621, 0x0652] (.node .nil k!"hardsigncyrillic" [0x044A] .nil)) k!"hatafpatahhebrew" [0x05B2] (.node (.node .nil k!"hatafsegolhebrew" [0x05B1] .nil) k!"hehinitialarabic" [0xFEEB] (.node .nil k!"hieuhparenkorean" [0x320D] .nil)))) k!"ideographicclose" [0x3006] (.node (.node (.node (.node .nil k!"ideographiccomma" [0x3001] .nil) k!"ideographicspace" [0x3000] (.node .nil k!"ieungparenkorean" [0x3207] .nil)) k!"jeemmedialarabic" [0xFEA0] (.node (.node .nil k!"kafinitialarabic" [0xFEDB] .nil) k!"kappasymbolgreek" [0x03F0] (.node .nil k!"kastrokecyrillic" [0x049F] .nil))) k!"khahmedialarabic" [0xFEA8] (.node (.node (.node .nil k!"kiroguramusquare" [0x3315] .nil) k!"kiyeoksioskorean" [0x3133] (.node .nil k!"lamedholamdagesh" [0x05DC, 0x05B9, 0x05BC] .nil)) k!"lamedholamhebrew" [0x05DC, 0x05B9] (.node (.node .nil k!"laminitialarabic" [0xFEDF] .nil) k!"lcircumflexbelow" [0x1E3D] (.node .nil k!"lefttackbelowcmb" [0x0318] .nil)))))

/-- Part of `AGL`, codecs/agl.py. -/
def aglTree52 : GlyphTree :=
  .node (.node (.node (.node (.node (.node (.node .nil k!"llvocalicbengali" [0x09E1] .nil) k!"maieklowleftthai" [0xF88C] .nil) k!"meemmedialarabic" [0xFEE4] (.node .nil k!"merkhalefthebrew" [0x05A5] .nil)) k!"mieumparenkorean" [0x3204] (.node (.node .nil k!"mieumpieupkorean" [0x316E] .nil) k!"ncircumflexbelow" [0x1E4B] (.node .nil k!"nieuncieuckorean" [0x3135] .nil))) k!"nieunhieuhkorean" [0x3136] (.node (.node (.node .nil k!"nieunparenkorean" [0x3201] .nil) k!"nikhahitleftthai" [0xF899] (.node .nil k!"nonbreakingspace" [0x00A0] .nil)) k!"noonghunnaarabic" [0x06BA] (.node (.node .nil k!"noonmedialarabic" [0xFEE8] .nil) k!"numeralsigngreek" [0x0374] (.node .nil k!"ocircumflexacute" [0x1ED1] .nil)))) k!"ocircumflexgrave" [0x1ED3] (.node (.node (.node (.node (.node .nil k!"ocircumflextilde" [0x1ED7] .nil) k!"omegalatinclosed" [0x0277] .nil) k!"palochkacyrillic" [0x04C0] (.node .nil k!"pehinitialarabic" [0xFB58] .nil)) k!"percentmonospace" [0xFF05] (.node (.node .nil k!"pieupcieuckorean" [0x3176] .nil) k!"pieupparenkorean" [0x3205] (.node .nil k!"qafinitialarabic" [0xFED7] .nil))) k!"qamatswidehebrew" [0x05B8] (.node (.node (.node .nil k!"qarneyparahebrew" [0x059F] .nil) k!"qubutswidehebrew" [0x05BB] (.node .nil k!"questionarmenian" [0x055E] .nil)) k!"reshdageshhebrew" [0xFB48] (.node (.node .nil k!"reshqamatshebrew" [0x05E8, 0x05B8] .nil) k!"reshqubutshebrew" [0x05E8, 0x05BB] (.node .nil k!"rieulhieuhkorean" [0x3140] .nil))))) k!"rieulmieumkorean" [0x313B] (.node (.node (.node (.node (.node (.node .nil k!"rieulparenkorean" [0x3203] .nil) k!"rieulpieupkorean" [0x313C] .nil) k!"rrvocalicbengali" [0x09E0] (.node .nil k!"rupeemarkbengali" [0x09F2] .nil)) k!"rupeesignbengali" [0x09F3] (.node (.node .nil k!"rvocalicgujarati" [0x0A8B] .nil) k!"sadinitialarabic" [0xFEBB] (.node .nil k!"seenmedialarabic" [0xFEB4] .nil))) k!"shalshelethebrew" [0x0593] (.node (.node (.node .nil k!"sheenfinalarabic" [0xFEB6] .nil) k!"shindageshhebrew" [0xFB49] (.node .nil k!"shindageshsindot" [0xFB2D] .nil)) k!"shinsindothebrew" [0xFB2B] (.node (.node .nil k!"siosaparenkorean" [0x3214] .nil) k!"sioscirclekorean" [0x3266] (.node .nil k!"sioskiyeokkorean" [0x317A] .nil)))) k!"siostikeutkorean" [0x317C] (.node (.node (.node (.node .nil k!"softsigncyrillic" [0x044C] .nil) k!"ssangcieuckorean" [0x3149] (.node .nil k!"ssanghieuhkorean" [0x3185] .nil)) k!"ssangieungkorean" [0x3180] (.node (.node .nil k!"ssangnieunkorean" [0x3165] .nil) k!"ssangpieupkorean" [0x3143] (.node .nil k!"supersetnotequal" [0x228B] .nil))) k!"tahinitialarabic" [0xFEC3] (.node (.node (.node .nil k!"taisyouerasquare" [0x337D] .nil) k!"tchehfinalarabic" [0xFB7B] (.node .nil k!"tcircumflexbelow" [0x1E71] .nil)) k!"tehinitialarabic" [0xFE97] (.node (.node .nil k!"tehmarbutaarabic" [0x0629] .nil) k!"thehmedialarabic" [0xFE9C] (.node .nil k!"thetasymbolgreek" [0x03D1] .nil)))))

/-- Part of `AGL`, codecs/agl.py. -/
def aglTree53 : GlyphTree :=
  .node (.node (.node (.node (.node (.node (.node .nil k!"tildeverticalcmb" [0x033E] .nil) k!"tipehalefthebrew" [0x0596] .nil) k!"titlocyrilliccmb" [0x0483] (.node .nil k!"ttehmedialarabic" [0xFB69] .nil)) k!"ucircumflexbelow" [0x1E77] (.node (.node .nil k!"vehinitialarabic" [0xFB6C] .nil) k!"whitesmallsquare" [0x25AB] (.node .nil k!"whitesmilingface" [0x263A] .nil))) k!"yehinitialarabic" [0xFEF3] (.node (.node (.node .nil k!"zahinitialarabic" [0xFEC7] .nil) k!"zaqefgadolhebrew" [0x0595] (.node .nil k!"zaqefqatanhebrew" [0x0594] .nil)) k!"zhebrevecyrillic" [0x04C2] (.node (.node .nil k!"Adieresiscyrillic" [0x04D2] .nil) k!"Eiotifiedcyrillic" [0x0464] (.node .nil k!"Ereversedcyrillic" [0x042D] .nil)))) k!"Ghestrokecyrillic" [0x0492] (.node (.node (.node (.node (.node .nil k!"Gheupturncyrillic" [0x0490] .nil) k!"Hungarumlautsmall" [0xF6F8] .nil) k!"Idieresiscyrillic" [0x04E4] (.node .nil k!"Kabashkircyrillic" [0x04A0] .nil)) k!"Odieresiscyrillic" [0x04E6] (.node (.node .nil k!"Udieresiscyrillic" [0x04F0] .nil) k!"Upsilonhooksymbol" [0x03D2] (.node .nil k!"Ustraightcyrillic" [0x04AE] .nil))) k!"Yuslittlecyrillic" [0x0466] (.node (.node (.node .nil k!"adieresiscyrillic" [0x04D3] .nil) k!"alefmaksuraarabic" [0x0649] (.node .nil k!"anglebracketright" [0x3009] .nil)) k!"arrowheadrightmod" [0x02C3] (.node (.node .nil k!"arrowupleftofdown" [0x21C5] .nil) k!"asteriskmonospace" [0xFF0A] (.node .nil k!"braceleftvertical" [0xFE37] .nil))))) k!"cieucaparenkorean" [0x3216] (.node (.node (.node (.node (.node (.node .nil k!"cieuccirclekorean" [0x3268] .nil) k!"cieucuparenkorean" [0x321C] .nil) k!"cornerbracketleft" [0x300C] (.node .nil k!"corporationsquare" [0x337F] .nil)) k!"daletdageshhebrew" [0xFB33] (.node (.node .nil k!"daletqamatshebrew" [0x05D3, 0x05B8] .nil) k!"daletqubutshebrew" [0x05D3, 0x05BB] (.node .nil k!"dialytikatonoscmb" [0x0344] .nil))) k!"eiotifiedcyrillic" [0x0465] (.node (.node (.node .nil k!"eopenreversedhook" [0x025D] .nil) k!"ereversedcyrillic" [0x044D] (.node .nil k!"etnahtalefthebrew" [0x0591] .nil)) k!"evowelsignbengali" [0x09C7] (.node (.node .nil k!"fourthtonechinese" [0x02CB] .nil) k!"ghainmedialarabic" [0xFED0] (.node .nil k!"ghestrokecyrillic" [0x0493] .nil)))) k!"gheupturncyrillic" [0x0491] (.node (.node (.node (.node .nil k!"gimeldageshhebrew" [0xFB32] .nil) k!"glottalstopstroke" [0x02A1] (.node .nil k!"harpoonleftbarbup" [0x21BC] .nil)) k!"hatafqamatshebrew" [0x05B3] (.node (.node .nil k!"hieuhaparenkorean" [0x321B] .nil) k!"hieuhcirclekorean" [0x326D] (.node .nil k!"hiriqnarrowhebrew" [0x05B4] .nil))) k!"holamnarrowhebrew" [0x05B9] (.node (.node (.node .nil k!"ideographicperiod" [0x3002] .nil) k!"idieresiscyrillic" [0x04E5] (.node .nil k!"ieungaparenkorean" [0x3215] .nil)) k!"ieungcirclekorean" [0x3267] (.node (.node .nil k!"iotadieresistonos" [0x0390] .nil) k!"iterationhiragana" [0x309D] (.node .nil k!"iterationkatakana" [0x30FD] .nil)))))

/-- Part of `AGL`, codecs/agl.py. -/
def aglTree54 : GlyphTree :=
  .node (.node (.node (.node (.node (.node (.node .nil k!"jeeminitialarabic" [0xFE9F] .nil) k!"kabashkircyrillic" [0x04A1] .nil) k!"kashidaautoarabic" [0x0640] (.node .nil k!"khahinitialarabic" [0xFEA7] .nil)) k!"kiromeetorusquare" [0x3316] (.node (.node .nil k!"kiyeokparenkorean" [0x3200] .nil) k!"lameddageshhebrew" [0xFB3C] (.node .nil k!"leftangleabovecmb" [0x031A] .nil))) k!"lowlinecenterline" [0xFE4E] (.node (.node (.node .nil k!"maieklowrightthai" [0xF88B] .nil) k!"maitaikhuleftthai" [0xF889] (.node .nil k!"maitholowleftthai" [0xF88F] .nil)) k!"maitrilowleftthai" [0xF892] (.node (.node .nil k!"meeminitialarabic" [0xFEE3] .nil) k!"mieumaparenkorean" [0x3212] (.node .nil k!"mieumcirclekorean" [0x3264] .nil)))) k!"nieunaparenkorean" [0x320F] (.node (.node (.node (.node (.node .nil k!"nieuncirclekorean" [0x3261] .nil) k!"nieuntikeutkorean" [0x3166] .nil) k!"nooninitialarabic" [0xFEE7] (.node .nil k!"notgreaternorless" [0x2279] .nil)) k!"odieresiscyrillic" [0x04E7] (.node (.node .nil k!"ovowelsignbengali" [0x09CB] .nil) k!"parenleftinferior" [0x208D] (.node .nil k!"parenleftsuperior" [0x207D] .nil))) k!"parenleftvertical" [0xFE35] (.node (.node (.node .nil k!"patahnarrowhebrew" [0x05B7] .nil) k!"pieupaparenkorean" [0x3213] (.node .nil k!"pieupcirclekorean" [0x3265] .nil)) k!"pieupkiyeokkorean" [0x3172] (.node (.node .nil k!"pieuptikeutkorean" [0x3173] .nil) k!"qamatsqatanhebrew" [0x05B8] (.node .nil k!"questiondownsmall" [0xF7BF] .nil))))) k!"questionmonospace" [0xFF1F] (.node (.node (.node (.node (.node (.node .nil k!"quotedblmonospace" [0xFF02] .nil) k!"quoteleftreversed" [0x201B] .nil) k!"rfishhookreversed" [0x027F] (.node .nil k!"rieulaparenkorean" [0x3211] .nil)) k!"rieulcirclekorean" [0x3263] (.node (.node .nil k!"rieulkiyeokkorean" [0x313A] .nil) k!"rieultikeutkorean" [0x316A] (.node .nil k!"righttackbelowcmb" [0x0319] .nil))) k!"rrvocalicgujarati" [0x0AE0] (.node (.node (.node .nil k!"saraaimaimuanthai" [0x0E43] .nil) k!"secondtonechinese" [0x02CA] (.node .nil k!"seeninitialarabic" [0xFEB3] .nil)) k!"segolnarrowhebrew" [0x05B6] (.node (.node .nil k!"shaddadammaarabic" [0xFC61] .nil) k!"shaddafathaarabic" [0xFC60] (.node .nil k!"shaddakasraarabic" [0xFC62] .nil)))) k!"sheenmedialarabic" [0xFEB8] (.node (.node (.node (.node .nil k!"shevanarrowhebrew" [0x05B0] .nil) k!"shindageshshindot" [0xFB2C] (.node .nil k!"shinshindothebrew" [0xFB2A] .nil)) k!"siosacirclekorean" [0x3274] (.node (.node .nil k!"ssangkiyeokkorean" [0x3132] .nil) k!"ssangtikeutkorean" [0x3138] (.node .nil k!"sterlingmonospace" [0xFFE1] .nil))) k!"tchehmedialarabic" [0xFB7D] (.node (.node (.node .nil k!"thehinitialarabic" [0xFE9B] .nil) k!"thonangmonthothai" [0x0E11] (.node .nil k!"tikeutparenkorean" [0x3202] .nil)) k!"tsadidageshhebrew" [0xFB46] (.node (.node .nil k!"tserenarrowhebrew" [0x05B5] .nil) k!"ttehinitialarabic" [0xFB68] (.node .nil k!"udieresiscyrillic" [0x04F1] .nil)))))

/-- Part of `AGL`, codecs/agl.py. -/
def aglTree55 : GlyphTree :=
  .node (.node (.node (.node (.node (.node (.node .nil k!"uvowelsignbengali" [0x09C1] .nil) k!"yeorinhieuhkorean" [0x3186] .nil) k!"yodyodpatahhebrew" [0xFB1F] (.node .nil k!"yuslittlecyrillic" [0x0467] .nil)) k!"zayindageshhebrew" [0xFB36] (.node (.node .nil k!"Omegaroundcyrillic" [0x047A] .nil) k!"Omegatitlocyrillic" [0x047C] (.node .nil k!"Sdotbelowdotaccent" [0x1E68] .nil))) k!"Zedieresiscyrillic" [0x04DE] (.node (.node (.node .nil k!"aavowelsignbengali" [0x09BE] .nil) k!"aivowelsignbengali" [0x09C8] (.node .nil k!"akatakanahalfwidth" [0xFF71] .nil)) k!"ampersandmonospace" [0xFF06] (.node (.node .nil k!"apostrophearmenian" [0x055A] .nil) k!"approxequalorimage" [0x2252] (.node .nil k!"approximatelyequal" [0x2245] .nil)))) k!"arrowleftdblstroke" [0x21CD] (.node (.node (.node (.node .nil k!"arrowleftoverright" [0x21C6] .nil) k!"arrowrightoverleft" [0x21C4] (.node .nil k!"auvowelsignbengali" [0x09CC] .nil)) k!"backslashmonospace" [0xFF3C] (.node (.node .nil k!"behnoonfinalarabic" [0xFC6D] .nil) k!"braceleftmonospace" [0xFF5B] (.node .nil k!"bracerightvertical" [0xFE38] .nil))) k!"candrabindubengali" [0x0981] (.node (.node (.node .nil k!"chieuchparenkorean" [0x3209] .nil) k!"cieucacirclekorean" [0x3276] (.node .nil k!"circumflexbelowcmb" [0x032D] .nil)) k!"colontriangularmod" [0x02D0] (.node (.node .nil k!"commaaboverightcmb" [0x0315] .nil) k!"cornerbracketright" [0x300D] (.node .nil k!"dotlessjstrokehook" [0x0284] .nil))))) k!"ekatakanahalfwidth" [0xFF74] (.node (.node (.node (.node (.node (.node .nil k!"etnahtafoukhhebrew" [0x0591] .nil) k!"evowelsigngujarati" [0x0AC7] .nil) k!"geometricallyequal" [0x2251] (.node .nil k!"gereshaccenthebrew" [0x059C] .nil)) k!"gereshmuqdamhebrew" [0x059D] (.node (.node .nil k!"ghaininitialarabic" [0xFECF] .nil) k!"greaterequalorless" [0x22DB] (.node .nil k!"harpoonrightbarbup" [0x21C0] .nil))) k!"hieuhacirclekorean" [0x327B] (.node (.node (.node .nil k!"hiriqquarterhebrew" [0x05B4] .nil) k!"holamquarterhebrew" [0x05B9] (.node .nil k!"ideographsuncircle" [0x3290] .nil)) k!"ieungacirclekorean" [0x3275] (.node (.node .nil k!"iivowelsignbengali" [0x09C0] .nil) k!"ikatakanahalfwidth" [0xFF72] (.node .nil k!"ivowelsigngujarati" [0x0ABF] .nil)))) k!"khieukhparenkorean" [0x320A] (.node (.node (.node (.node .nil k!"kiyeokaparenkorean" [0x320E] .nil) k!"kiyeokcirclekorean" [0x3260] (.node .nil k!"lamaleffinalarabic" [0xFEFC] .nil)) k!"lessequalorgreater" [0x22DA] (.node (.node .nil k!"logicalnotreversed" [0x2310] .nil) k!"mahapakhlefthebrew" [0x05A4] (.node .nil k!"maiekupperleftthai" [0xF88A] .nil))) k!"maihanakatleftthai" [0xF884] (.node (.node (.node .nil k!"maitholowrightthai" [0xF88E] .nil) k!"maitrilowrightthai" [0xF891] (.node .nil k!"masoracirclehebrew" [0x05AF] .nil)) k!"merkhakefulahebrew" [0x05A6] (.node (.node .nil k!"mieumacirclekorean" [0x3272] .nil) k!"mieumpansioskorean" [0x3170] (.node .nil k!"nieunacirclekorean" [0x326F] .nil)))))

/-- Part of `AGL`, codecs/agl.py. -/
def aglTree56 : GlyphTree :=
  .node (.node (.node (.node (.node (.node (.node .nil k!"nkatakanahalfwidth" [0xFF9D] .nil) k!"notgreaternorequal" [0x2271] .nil) k!"okatakanahalfwidth" [0xFF75] (.node .nil k!"omegaroundcyrillic" [0x047B] .nil)) k!"omegatitlocyrillic" [0x047D] (.node (.node .nil k!"overlinecenterline" [0xFE4A] .nil) k!"ovowelsigngujarati" [0x0ACB] (.node .nil k!"parenleftmonospace" [0xFF08] .nil))) k!"parenrightinferior" [0x208E] (.node (.node (.node .nil k!"parenrightsuperior" [0x207E] .nil) k!"parenrightvertical" [0xFE36] (.node .nil k!"patahquarterhebrew" [0x05B7] .nil)) k!"phieuphparenkorean" [0x320C] (.node (.node .nil k!"pieupacirclekorean" [0x3273] .nil) k!"pieupthieuthkorean" [0x3177] (.node .nil k!"qamatsnarrowhebrew" [0x05B8] .nil)))) k!"qubutsnarrowhebrew" [0x05BB] (.node (.node (.node (.node (.node .nil k!"reviamugrashhebrew" [0x0597] .nil) k!"rieulacirclekorean" [0x3271] .nil) k!"rieulpansioskorean" [0x316C] (.node .nil k!"rieulphieuphkorean" [0x313F] .nil)) k!"rieulthieuthkorean" [0x313E] (.node (.node .nil k!"samekhdageshhebrew" [0xFB41] .nil) k!"saraaimaimalaithai" [0x0E44] (.node .nil k!"sdotbelowdotaccent" [0x1E69] .nil))) k!"segolquarterhebrew" [0x05B6] (.node (.node (.node .nil k!"semicolonmonospace" [0xFF1B] .nil) k!"semivoicedmarkkana" [0x309C] (.node .nil k!"sheeninitialarabic" [0xFEB7] .nil)) k!"shevaquarterhebrew" [0x05B0] (.node (.node .nil k!"squareverticalfill" [0x25A5] .nil) k!"tchehinitialarabic" [0xFB7C] (.node .nil k!"tehnoonfinalarabic" [0xFC73] .nil))))) k!"thieuthparenkorean" [0x320B] (.node (.node (.node (.node (.node (.node .nil k!"tikeutaparenkorean" [0x3210] .nil) k!"tikeutcirclekorean" [0x3262] .nil) k!"tonebarextralowmod" [0x02E9] (.node .nil k!"tserequarterhebrew" [0x05B5] .nil)) k!"ukatakanahalfwidth" [0xFF73] (.node (.node .nil k!"underscorevertical" [0xFE33] .nil) k!"uuvowelsignbengali" [0x09C2] (.node .nil k!"uvowelsigngujarati" [0x0AC1] .nil))) k!"verticallinelowmod" [0x02CC] (.node (.node (.node .nil k!"whitecircleinverse" [0x25D9] .nil) k!"yehnoonfinalarabic" [0xFC94] (.node .nil k!"yerahbenyomohebrew" [0x05AA] .nil)) k!"yesieungsioskorean" [0x3182] (.node (.node .nil k!"zedieresiscyrillic" [0x04DF] .nil) k!"zerowidthnonjoiner" [0x200C] (.node .nil k!"Acircumflexdotbelow" [0x1EAC] .nil)))) k!"Chedieresiscyrillic" [0x04F4] (.node (.node (.node (.node .nil k!"Ecircumflexdotbelow" [0x1EC6] .nil) k!"Endescendercyrillic" [0x04A2] (.node .nil k!"Esdescendercyrillic" [0x04AA] .nil)) k!"Haabkhasiancyrillic" [0x04A8] (.node (.node .nil k!"Hadescendercyrillic" [0x04B2] .nil) k!"Kadescendercyrillic" [0x049A] (.node .nil k!"Ocircumflexdotbelow" [0x1ED8] .nil))) k!"Tedescendercyrillic" [0x04AC] (.node (.node (.node .nil k!"Zedescendercyrillic" [0x0498] .nil) k!"Zhedieresiscyrillic" [0x04DC] (.node .nil k!"aavowelsigngujarati" [0x0ABE] .nil)) k!"acircumflexdotbelow" [0x1EAD] (.node (.node .nil k!"aivowelsigngujarati" [0x0AC8] .nil) k!"arrowrightdblstroke" [0x21CF] (.node .nil k!"asciitildemonospace" [0xFF5E] .nil)))))

/-- Part of `AGL`, codecs/agl.py. -/
def aglTree57 : GlyphTree :=
  .node (.node (.node (.node (.node (.node (.node .nil k!"aulengthmarkbengali" [0x09D7] .nil) k!"auvowelsigngujarati" [0x0ACC] .nil) k!"bracerightmonospace" [0xFF5D] (.node .nil k!"candrabindugujarati" [0x0A81] .nil)) k!"chedieresiscyrillic" [0x04F5] (.node (.node .nil k!"chieuchaparenkorean" [0x3217] .nil) k!"chieuchcirclekorean" [0x3269] (.node .nil k!"commaturnedabovecmb" [0x0312] .nil))) k!"dblanglebracketleft" [0x300A] (.node (.node (.node .nil k!"ecircumflexdotbelow" [0x1EC7] .nil) k!"endescendercyrillic" [0x04A3] (.node .nil k!"eopenreversedclosed" [0x025E] .nil)) k!"esdescendercyrillic" [0x04AB] (.node (.node .nil k!"eshortvowelsigndeva" [0x0946] .nil) k!"finalkafshevahebrew" [0x05DA, 0x05B0] (.node .nil k!"glottalstopinverted" [0x0296] .nil)))) k!"glottalstopreversed" [0x0295] (.node (.node (.node (.node (.node .nil k!"greaterorequivalent" [0x2273] .nil) k!"haabkhasiancyrillic" [0x04A9] .nil) k!"hadescendercyrillic" [0x04B3] (.node .nil k!"hakatakanahalfwidth" [0xFF8A] .nil)) k!"hamzadammatanarabic" [0x0621, 0x064C] (.node (.node .nil k!"hamzafathatanarabic" [0x0621, 0x064B] .nil) k!"hamzalowkasraarabic" [0x0621, 0x0650] (.node .nil k!"hekatakanahalfwidth" [0xFF8D] .nil))) k!"hikatakanahalfwidth" [0xFF8B] (.node (.node (.node .nil k!"hokatakanahalfwidth" [0xFF8E] .nil) k!"hukatakanahalfwidth" [0xFF8C] (.node .nil k!"ideographfirecircle" [0x328B] .nil)) k!"ideographicsunparen" [0x3230] (.node (.node .nil k!"ideographmooncircle" [0x328A] .nil) k!"ideographnamecircle" [0x3294] (.node .nil k!"ideographwoodcircle" [0x328D] .nil))))) k!"iivowelsigngujarati" [0x0AC0] (.node (.node (.node (.node (.node (.node .nil k!"kadescendercyrillic" [0x049B] .nil) k!"kakatakanahalfwidth" [0xFF76] .nil) k!"kapyeounmieumkorean" [0x3171] (.node .nil k!"kapyeounpieupkorean" [0x3178] .nil)) k!"kekatakanahalfwidth" [0xFF79] (.node (.node .nil k!"khieukhaparenkorean" [0x3218] .nil) k!"khieukhcirclekorean" [0x326A] (.node .nil k!"kikatakanahalfwidth" [0xFF77] .nil))) k!"kiyeokacirclekorean" [0x326E] (.node (.node (.node .nil k!"kokatakanahalfwidth" [0xFF7A] .nil) k!"kukatakanahalfwidth" [0xFF78] (.node .nil k!"lamhahinitialarabic" [0xFCCA] .nil)) k!"maithoupperleftthai" [0xF88D] (.node (.node .nil k!"maitriupperleftthai" [0xF890] .nil) k!"makatakanahalfwidth" [0xFF8F] (.node .nil k!"mekatakanahalfwidth" [0xFF92] .nil)))) k!"mikatakanahalfwidth" [0xFF90] (.node (.node (.node (.node .nil k!"mokatakanahalfwidth" [0xFF93] .nil) k!"moverssquaredsquare" [0x33A8] (.node .nil k!"mukatakanahalfwidth" [0xFF91] .nil)) k!"nakatakanahalfwidth" [0xFF85] (.node (.node .nil k!"nekatakanahalfwidth" [0xFF88] .nil) k!"nikatakanahalfwidth" [0xFF86] (.node .nil k!"nokatakanahalfwidth" [0xFF89] .nil))) k!"noonnoonfinalarabic" [0xFC8D] (.node (.node (.node .nil k!"nukatakanahalfwidth" [0xFF87] .nil) k!"numbersignmonospace" [0xFF03] (.node .nil k!"ocircumflexdotbelow" [0x1ED9] .nil)) k!"oneideographicparen" [0x3220] (.node (.node .nil k!"onenumeratorbengali" [0x09F4] .nil) k!"oshortvowelsigndeva" [0x094A] (.node .nil k!"parenrightmonospace" [0xFF09] .nil)))))

/-- Part of `AGL`, codecs/agl.py. -/
def aglTree58 : GlyphTree :=
  .node (.node (.node (.node (.node (.node (.node .nil k!"perispomenigreekcmb" [0x0342] .nil) k!"phieuphaparenkorean" [0x321A] .nil) k!"phieuphcirclekorean" [0x326C] (.node .nil k!"qamatsquarterhebrew" [0x05B8] .nil)) k!"qofhatafpatahhebrew" [0x05E7, 0x05B2] (.node (.node .nil k!"qofhatafsegolhebrew" [0x05E7, 0x05B1] .nil) k!"qubutsquarterhebrew" [0x05BB] (.node .nil k!"rakatakanahalfwidth" [0xFF97] .nil))) k!"rehyehaleflamarabic" [0x0631, 0xFEF3, 0xFE8E, 0x0644] (.node (.node (.node .nil k!"rekatakanahalfwidth" [0xFF9A] .nil) k!"rhookturnedsuperior" [0x02B5] (.node .nil k!"rikatakanahalfwidth" [0xFF98] .nil)) k!"rokatakanahalfwidth" [0xFF9B] (.node (.node .nil k!"rukatakanahalfwidth" [0xFF99] .nil) k!"sakatakanahalfwidth" [0xFF7B] (.node .nil k!"sekatakanahalfwidth" [0xFF7E] .nil)))) k!"sikatakanahalfwidth" [0xFF7C] (.node (.node (.node (.node (.node .nil k!"sixideographicparen" [0x3225] .nil) k!"sokatakanahalfwidth" [0xFF7F] .nil) k!"sukatakanahalfwidth" [0xFF7D] (.node .nil k!"takatakanahalfwidth" [0xFF80] .nil)) k!"tedescendercyrillic" [0x04AD] (.node (.node .nil k!"tehhahinitialarabic" [0xFCA2] .nil) k!"tekatakanahalfwidth" [0xFF83] (.node .nil k!"telishagedolahebrew" [0x05A0] .nil))) k!"telishaqetanahebrew" [0x05A9] (.node (.node (.node .nil k!"tenideographicparen" [0x3229] .nil) k!"thieuthaparenkorean" [0x3219] (.node .nil k!"thieuthcirclekorean" [0x326B] .nil)) k!"threequartersemdash" [0xF6DE] (.node (.node .nil k!"tikatakanahalfwidth" [0xFF81] .nil) k!"tikeutacirclekorean" [0x3270] (.node .nil k!"tokatakanahalfwidth" [0xFF84] .nil))))) k!"tonebarextrahighmod" [0x02E5] (.node (.node (.node (.node (.node (.node .nil k!"tukatakanahalfwidth" [0xFF82] .nil) k!"twoideographicparen" [0x3221] .nil) k!"twonumeratorbengali" [0x09F5] (.node .nil k!"underscoremonospace" [0xFF3F] .nil)) k!"uuvowelsigngujarati" [0x0AC2] (.node (.node .nil k!"wakatakanahalfwidth" [0xFF9C] .nil) k!"wawhamzaabovearabic" [0x0624] (.node .nil k!"wokatakanahalfwidth" [0xFF66] .nil))) k!"yakatakanahalfwidth" [0xFF94] (.node (.node (.node .nil k!"yehhamzaabovearabic" [0x0626] .nil) k!"yokatakanahalfwidth" [0xFF96] (.node .nil k!"yukatakanahalfwidth" [0xFF95] .nil)) k!"zedescendercyrillic" [0x0499] (.node (.node .nil k!"zhedieresiscyrillic" [0x04DD] .nil) k!"Acircumflexhookabove" [0x1EA8] (.node .nil k!"Cheabkhasiancyrillic" [0x04BC] .nil)))) k!"Chedescendercyrillic" [0x04B6] (.node (.node (.node (.node .nil k!"Dzeabkhasiancyrillic" [0x04E0] .nil) k!"Ecircumflexhookabove" [0x1EC2] (.node .nil k!"Ocircumflexhookabove" [0x1ED4] .nil)) k!"Pemiddlehookcyrillic" [0x04A6] (.node (.node .nil k!"Yerudieresiscyrillic" [0x04F8] .nil) k!"Zhedescendercyrillic" [0x0496] (.node .nil k!"abbreviationsigndeva" [0x0970] .nil))) k!"acircumflexhookabove" [0x1EA9] (.node (.node (.node .nil k!"alefhamzaabovearabic" [0x0623] .nil) k!"alefhamzabelowarabic" [0x0625] (.node .nil k!"alefmaddaabovearabic" [0x0622] .nil)) k!"asciicircummonospace" [0xFF3E] (.node (.node .nil k!"asteriskaltonearabic" [0x066D] .nil) k!"beamedsixteenthnotes" [0x266C] (.node .nil k!"behmeeminitialarabic" [0xFC9F] .nil)))))

/-- Part of `AGL`, codecs/agl.py. -/
def aglTree59 : GlyphTree :=
  .node (.node (.node (.node (.node (.node (.node .nil k!"cheabkhasiancyrillic" [0x04BD] .nil) k!"chedescendercyrillic" [0x04B7] .nil) k!"chieuchacirclekorean" [0x3277] (.node .nil k!"dammatanaltonearabic" [0x064C] .nil)) k!"dblanglebracketright" [0x300B] (.node (.node .nil k!"doubleyodpatahhebrew" [0xFB1F] .nil) k!"dzeabkhasiancyrillic" [0x04E1] (.node .nil k!"ecandravowelsigndeva" [0x0945] .nil))) k!"ecircumflexhookabove" [0x1EC3] (.node (.node (.node .nil k!"emphasismarkarmenian" [0x055B] .nil) k!"finalkafdageshhebrew" [0xFB3A] (.node .nil k!"finalkafqamatshebrew" [0x05DA, 0x05B8] .nil)) k!"fiveideographicparen" [0x3224] (.node (.node .nil k!"fourideographicparen" [0x3223] .nil) k!"fournumeratorbengali" [0x09F7] (.node .nil k!"hatafpatahwidehebrew" [0x05B2] .nil)))) k!"hatafsegolwidehebrew" [0x05B1] (.node (.node (.node (.node (.node .nil k!"hehfinalaltonearabic" [0xFBA7] .nil) k!"hehfinalalttwoarabic" [0xFEEA] .nil) k!"ideographearthcircle" [0x328F] (.node .nil k!"ideographiccallparen" [0x323A] .nil)) k!"ideographiccommaleft" [0xFF64] (.node (.node .nil k!"ideographicfireparen" [0x322B] .nil) k!"ideographichaveparen" [0x3232] (.node .nil k!"ideographiclowcircle" [0x32A6] .nil))) k!"ideographicmoonparen" [0x322A] (.node (.node (.node .nil k!"ideographicnameparen" [0x3234] .nil) k!"ideographicselfparen" [0x3242] (.node .nil k!"ideographicwoodparen" [0x322D] .nil)) k!"ideographmetalcircle" [0x328E] (.node (.node .nil k!"ideographwatercircle" [0x328C] .nil) k!"khieukhacirclekorean" [0x3278] (.node .nil k!"koreanstandardsymbol" [0x327F] .nil))))) k!"lamjeeminitialarabic" [0xFCC9] (.node (.node (.node (.node (.node (.node .nil k!"lamkhahinitialarabic" [0xFCCB] .nil) k!"lammeeminitialarabic" [0xFCCC] .nil) k!"nineideographicparen" [0x3228] (.node .nil k!"noonhehinitialarabic" [0xFEE7, 0xFEEC] .nil)) k!"ocandravowelsigndeva" [0x0949] (.node (.node .nil k!"ocircumflexhookabove" [0x1ED5] .nil) k!"pemiddlehookcyrillic" [0x04A7] (.node .nil k!"phieuphacirclekorean" [0x327A] .nil))) k!"pointingindexupwhite" [0x261D] (.node (.node (.node .nil k!"quotesinglemonospace" [0xFF07] .nil) k!"reshhatafpatahhebrew" [0x05E8, 0x05B2] (.node .nil k!"reshhatafsegolhebrew" [0x05E8, 0x05B1] .nil)) k!"rieulpieupsioskorean" [0x316B] (.node (.node .nil k!"ringhalfleftarmenian" [0x0559] .nil) k!"ringhalfleftbelowcmb" [0x031C] (.node .nil k!"ringhalfleftcentered" [0x02D3] .nil)))) k!"shaddadammatanarabic" [0xFC5E] (.node (.node (.node (.node .nil k!"shaddafathatanarabic" [0x0651, 0x064B] .nil) k!"shaddakasratanarabic" [0xFC5F] (.node .nil k!"squarehorizontalfill" [0x25A4] .nil)) k!"strokelongoverlaycmb" [0x0336] (.node (.node .nil k!"tehhahisolatedarabic" [0xFC0C] .nil) k!"tehjeeminitialarabic" [0xFCA1] (.node .nil k!"tehmeeminitialarabic" [0xFCA4] .nil))) k!"thieuthacirclekorean" [0x3279] (.node (.node (.node .nil k!"twodotleadervertical" [0xFE30] .nil) k!"upsilondieresistonos" [0x03B0] (.node .nil k!"verticallineabovecmb" [0x030D] .nil)) k!"verticallinebelowcmb" [0x0329] (.node (.node .nil k!"yehbarreefinalarabic" [0xFBAF] .nil) k!"yehmeeminitialarabic" [0xFCDD] (.node .nil k!"yerudieresiscyrillic" [0x04F9] .nil)))))

/-- Part of `AGL`, codecs/agl.py. -/
def aglTree60 : GlyphTree :=
  .node (.node (.node (.node (.node (.node (.node .nil k!"Chekhakassiancyrillic" [0x04CB] .nil) k!"Ghemiddlehookcyrillic" [0x0494] .nil) k!"Schwadieresiscyrillic" [0x04DA] (.node .nil k!"Uhungarumlautcyrillic" [0x04F2] .nil)) k!"behmeemisolatedarabic" [0xFC08] (.node (.node .nil k!"bracketrightmonospace" [0xFF3D] .nil) k!"breveinvertedbelowcmb" [0x032F] (.node .nil k!"chekhakassiancyrillic" [0x04CC] .nil))) k!"commareversedabovecmb" [0x0314] (.node (.node (.node .nil k!"dalethatafpatahhebrew" [0x05D3, 0x05B2] .nil) k!"dalethatafsegolhebrew" [0x05D3, 0x05B1] (.node .nil k!"eightideographicparen" [0x3227] .nil)) k!"gershayimaccenthebrew" [0x059E] (.node (.node .nil k!"ghemiddlehookcyrillic" [0x0495] .nil) k!"glottalinvertedstroke" [0x01BE] (.node .nil k!"hatafqamatswidehebrew" [0x05B3] .nil)))) k!"hehmedialaltonearabic" [0xFBA9] (.node (.node (.node (.node (.node .nil k!"hookretroflexbelowcmb" [0x0322] .nil) k!"ideographicearthparen" [0x322F] .nil) k!"ideographichighcircle" [0x32A4] (.node .nil k!"ideographiclaborparen" [0x3238] .nil)) k!"ideographicleftcircle" [0x32A7] (.node (.node .nil k!"ideographicmetalparen" [0x322E] .nil) k!"ideographicreachparen" [0x3243] (.node .nil k!"ideographicstockparen" [0x3231] .nil))) k!"ideographicstudyparen" [0x323B] (.node (.node (.node .nil k!"ideographicwaterparen" [0x322C] .nil) k!"kapyeounphieuphkorean" [0x3184] (.node .nil k!"lamalefisolatedarabic" [0xFEFB] .nil)) k!"lvocalicvowelsigndeva" [0x0962] (.node (.node .nil k!"meemmeeminitialarabic" [0xFCD1] .nil) k!"noonghunnafinalarabic" [0xFB9F] (.node .nil k!"noonjeeminitialarabic" [0xFCD2] .nil))))) k!"noonmeeminitialarabic" [0xFCD5] (.node (.node (.node (.node (.node (.node .nil k!"numeralsignlowergreek" [0x0375] .nil) k!"parenleftaltonearabic" [0xFD3E] .nil) k!"pieupsioskiyeokkorean" [0x3174] (.node .nil k!"pieupsiostikeutkorean" [0x3175] .nil)) k!"qamatsqatanwidehebrew" [0x05B8] (.node (.node .nil k!"quotedblprimereversed" [0x301D] .nil) k!"radoverssquaredsquare" [0x33AF] (.node .nil k!"rieulkiyeoksioskorean" [0x3169] .nil))) k!"ringhalfrightbelowcmb" [0x0339] (.node (.node (.node .nil k!"ringhalfrightcentered" [0x02D2] .nil) k!"rvocalicvowelsigndeva" [0x0943] (.node .nil k!"schwadieresiscyrillic" [0x04DB] .nil)) k!"sevenideographicparen" [0x3226] (.node (.node .nil k!"soliduslongoverlaycmb" [0x0338] .nil) k!"strokeshortoverlaycmb" [0x0335] (.node .nil k!"tehjeemisolatedarabic" [0xFC0B] .nil)))) k!"tehmarbutafinalarabic" [0xFE94] (.node (.node (.node (.node .nil k!"tehmeemisolatedarabic" [0xFC0E] .nil) k!"threeideographicparen" [0x3222] (.node .nil k!"threenumeratorbengali" [0x09F6] .nil)) k!"uhungarumlautcyrillic" [0x04F3] (.node (.node .nil k!"yehmeemisolatedarabic" [0xFC58] .nil) k!"yesieungpansioskorean" [0x3183] (.node .nil k!"ypogegrammenigreekcmb" [0x0345] .nil))) k!"Rsmallinvertedsuperior" [0x02B6] (.node (.node (.node .nil k!"Yusbigiotifiedcyrillic" [0x046C] .nil) k!"alefmaksurafinalarabic" [0xFEF0] (.node .nil k!"blacklowerlefttriangle" [0x25E3] .nil)) k!"blackupperlefttriangle" [0x25E4] (.node (.node .nil k!"breveinverteddoublecmb" [0x0361] .nil) k!"bridgeinvertedbelowcmb" [0x033A] (.node .nil k!"colontriangularhalfmod" [0x02D1] .nil)))))

/-- Part of `AGL`, codecs/agl.py. -/
def aglTree61 : GlyphTree :=
  .node (.node (.node (.node (.node (.node (.node .nil k!"etnahtafoukhlefthebrew" [0x0591] .nil) k!"glottalstopreversedmod" [0x02C1] .nil) k!"hamzalowkasratanarabic" [0x0621, 0x064D] (.node .nil k!"hatafpatahnarrowhebrew" [0x05B2] .nil)) k!"hatafsegolnarrowhebrew" [0x05B1] (.node (.node .nil k!"hehinitialaltonearabic" [0xFBA8] .nil) k!"ideographiclaborcircle" [0x3298] (.node .nil k!"ideographicprintcircle" [0x329E] .nil))) k!"ideographicrightcircle" [0x32A8] (.node (.node (.node .nil k!"lamedholamdageshhebrew" [0x05DC, 0x05B9, 0x05BC] .nil) k!"llvocalicvowelsigndeva" [0x0963] (.node .nil k!"maichattawalowleftthai" [0xF895] .nil)) k!"meemmeemisolatedarabic" [0xFC48] (.node (.node .nil k!"merkhakefulalefthebrew" [0x05A6] .nil) k!"noonjeemisolatedarabic" [0xFC4B] (.node .nil k!"noonmeemisolatedarabic" [0xFC4E] .nil)))) k!"parenrightaltonearabic" [0xFD3F] (.node (.node (.node (.node (.node .nil k!"pointingindexdownwhite" [0x261F] .nil) k!"pointingindexleftwhite" [0x261C] .nil) k!"ralowerdiagonalbengali" [0x09F1] (.node .nil k!"rieulyeorinhieuhkorean" [0x316D] .nil)) k!"rrvocalicvowelsigndeva" [0x0944] (.node (.node .nil k!"shindageshsindothebrew" [0xFB2D] .nil) k!"sigmalunatesymbolgreek" [0x03F2] (.node .nil k!"solidusshortoverlaycmb" [0x0337] .nil))) k!"tchehmeeminitialarabic" [0xFB7C, 0xFEE4] (.node (.node (.node .nil k!"thanthakhatlowleftthai" [0xF898] .nil) k!"wavyunderscorevertical" [0xFE34] (.node .nil k!"whitecornerbracketleft" [0x300E] .nil)) k!"yerahbenyomolefthebrew" [0x05AA] (.node (.node .nil k!"yusbigiotifiedcyrillic" [0x046D] .nil) k!"Izhitsadblgravecyrillic" [0x0476] (.node .nil k!"Obarreddieresiscyrillic" [0x04EA] .nil))))) k!"Ustraightstrokecyrillic" [0x04B0] (.node (.node (.node (.node (.node (.node .nil k!"alefmaksuramedialarabic" [0xFEF4] .nil) k!"asmallkatakanahalfwidth" [0xFF67] .nil) k!"blacklowerrighttriangle" [0x25E2] (.node .nil k!"blackupperrighttriangle" [0x25E5] .nil)) k!"blackuppointingtriangle" [0x25B2] (.node (.node .nil k!"circlewithlefthalfblack" [0x25D0] .nil) k!"dblarchinvertedbelowcmb" [0x032B] (.node .nil k!"dblverticallineabovecmb" [0x030E] .nil))) k!"decimalseparatorpersian" [0x066B] (.node (.node (.node .nil k!"esmallkatakanahalfwidth" [0xFF6A] .nil) k!"hatafpatahquarterhebrew" [0x05B2] (.node .nil k!"hatafqamatsnarrowhebrew" [0x05B3] .nil)) k!"hatafsegolquarterhebrew" [0x05B1] (.node (.node .nil k!"hookpalatalizedbelowcmb" [0x0321] .nil) k!"ideographiccentrecircle" [0x32A5] (.node .nil k!"ideographicsecretcircle" [0x3299] .nil)))) k!"ideographicsocietyparen" [0x3233] (.node (.node (.node (.node .nil k!"ideographicspecialparen" [0x3235] .nil) k!"ismallkatakanahalfwidth" [0xFF68] (.node .nil k!"izhitsadblgravecyrillic" [0x0477] .nil)) k!"lamlamhehisolatedarabic" [0xFDF2] (.node (.node .nil k!"lammeemhahinitialarabic" [0xFD88] .nil) k!"maichattawalowrightthai" [0xF894] (.node .nil k!"obarreddieresiscyrillic" [0x04EB] .nil))) k!"osmallkatakanahalfwidth" [0xFF6B] (.node (.node (.node .nil k!"pointingindexrightwhite" [0x261E] .nil) k!"qamatsqatannarrowhebrew" [0x05B8] (.node .nil k!"ramiddlediagonalbengali" [0x09F0] .nil)) k!"shindageshshindothebrew" [0xFB2C] (.node (.node .nil k!"thanthakhatlowrightthai" [0xF897] .nil) k!"usmallkatakanahalfwidth" [0xFF69] (.node .nil k!"ustraightstrokecyrillic" [0x04B1] .nil)))))

/-- Part of `AGL`, codecs/agl.py. -/
def aglTree62 : GlyphTree :=
  .node (.node (.node (.node (.node (.node (.node .nil k!"voicediterationkatakana" [0x30FE] .nil) k!"voicedmarkkanahalfwidth" [0xFF9E] .nil) k!"whitecornerbracketright" [0x300F] (.node .nil k!"whiteuppointingtriangle" [0x25B3] .nil)) k!"yehthreedotsbelowarabic" [0x06D1] (.node (.node .nil k!"Kaverticalstrokecyrillic" [0x049C] .nil) k!"abbreviationmarkarmenian" [0x055F] (.node .nil k!"alefmaksurainitialarabic" [0xFEF3] .nil))) k!"anglebracketleftvertical" [0xFE3F] (.node (.node (.node .nil k!"blackleftpointingpointer" [0x25C4] .nil) k!"circlewithrighthalfblack" [0x25D1] (.node .nil k!"dasiapneumatacyrilliccmb" [0x0485] .nil)) k!"ecandravowelsigngujarati" [0x0AC5] (.node (.node .nil k!"hatafqamatsquarterhebrew" [0x05B3] .nil) k!"hehhamzaabovefinalarabic" [0xFBA5] (.node .nil k!"ideographicallianceparen" [0x323F] .nil)))) k!"ideographiccorrectcircle" [0x32A3] (.node (.node (.node (.node (.node .nil k!"ideographicfestivalparen" [0x3240] .nil) k!"ideographiciterationmark" [0x3005] .nil) k!"ideographicresourceparen" [0x323E] (.node .nil k!"kapyeounssangpieupkorean" [0x3179] .nil)) k!"kaverticalstrokecyrillic" [0x049D] (.node (.node .nil k!"lammeemjeeminitialarabic" [0xFEDF, 0xFEE4, 0xFEA0] .nil) k!"lammeemkhahinitialarabic" [0xFEDF, 0xFEE4, 0xFEA8] (.node .nil k!"lvocalicvowelsignbengali" [0x09E2] .nil))) k!"maichattawaupperleftthai" [0xF893] (.node (.node (.node .nil k!"ocandravowelsigngujarati" [0x0AC9] .nil) k!"psilipneumatacyrilliccmb" [0x0486] (.node .nil k!"qamatsqatanquarterhebrew" [0x05B8] .nil)) k!"rvocalicvowelsignbengali" [0x09C3] (.node (.node .nil k!"thanthakhatupperleftthai" [0xF896] .nil) k!"thousandsseparatorarabic" [0x066C] (.node .nil k!"tortoiseshellbracketleft" [0x3014] .nil))))) k!"tusmallkatakanahalfwidth" [0xFF6F] (.node (.node (.node (.node (.node (.node .nil k!"wawhamzaabovefinalarabic" [0xFE86] .nil) k!"yasmallkatakanahalfwidth" [0xFF6C] .nil) k!"yehhamzaabovefinalarabic" [0xFE8A] (.node .nil k!"yosmallkatakanahalfwidth" [0xFF6E] .nil)) k!"yusmallkatakanahalfwidth" [0xFF6D] (.node (.node .nil k!"Cheverticalstrokecyrillic" [0x04B8] .nil) k!"Yuslittleiotifiedcyrillic" [0x0468] (.node .nil k!"alefhamzaabovefinalarabic" [0xFE84] .nil))) k!"alefhamzabelowfinalarabic" [0xFE88] (.node (.node (.node .nil k!"alefmaddaabovefinalarabic" [0xFE82] .nil) k!"anglebracketrightvertical" [0xFE40] (.node .nil k!"blackdownpointingtriangle" [0x25BC] .nil)) k!"blackleftpointingtriangle" [0x25C0] (.node (.node .nil k!"blackrightpointingpointer" [0x25BA] .nil) k!"cheverticalstrokecyrillic" [0x04B9] (.node .nil k!"cornerbracketleftvertical" [0xFE41] .nil)))) k!"glottalstopstrokereversed" [0x02A2] (.node (.node (.node (.node .nil k!"ideographicfinancialparen" [0x3236] .nil) k!"ideographicmedicinecircle" [0x32A9] (.node .nil k!"ideographicrepresentparen" [0x3239] .nil)) k!"ideographicsuperviseparen" [0x323C] (.node (.node .nil k!"imageorapproximatelyequal" [0x2253] .nil) k!"llvocalicvowelsignbengali" [0x09E3] (.node .nil k!"onecircleinversesansserif" [0x278A] .nil))) k!"palatalizationcyrilliccmb" [0x0484] (.node (.node (.node .nil k!"rrvocalicvowelsignbengali" [0x09C4] .nil) k!"rvocalicvowelsigngujarati" [0x0AC3] (.node .nil k!"sixcircleinversesansserif" [0x278F] .nil)) k!"squarewhitewithsmallblack" [0x25A3] (.node (.node .nil k!"thousandsseparatorpersian" [0x066C] .nil) k!"tortoiseshellbracketright" [0x3015] (.node .nil k!"twocircleinversesansserif" [0x278B] .nil)))))

/-- Part of `AGL`, codecs/agl.py. -/
def aglTree63 : GlyphTree :=
  .node (.node (.node (.node (.node (.node (.node .nil k!"whiteleftpointingtriangle" [0x25C1] .nil) k!"yehhamzaabovemedialarabic" [0xFE8C] .nil) k!"yuslittleiotifiedcyrillic" [0x0469] (.node .nil k!"blacklenticularbracketleft" [0x3010] .nil)) k!"blackrightpointingtriangle" [0x25B6] (.node (.node .nil k!"cornerbracketlefthalfwidth" [0xFF62] .nil) k!"cornerbracketrightvertical" [0xFE42] (.node .nil k!"fivecircleinversesansserif" [0x278E] .nil))) k!"fourcircleinversesansserif" [0x278D] (.node (.node (.node .nil k!"ideographicenterpriseparen" [0x323D] .nil) k!"ideographicexcellentcircle" [0x329D] (.node .nil k!"ideographicfinancialcircle" [0x3296] .nil)) k!"middledotkatakanahalfwidth" [0xFF65] (.node (.node .nil k!"ninecircleinversesansserif" [0x2792] .nil) k!"rrvocalicvowelsigngujarati" [0x0AC4] (.node .nil k!"whitelenticularbracketleft" [0x3016] .nil)))) k!"whiterightpointingtriangle" [0x25B7] (.node (.node (.node (.node .nil k!"yehhamzaaboveinitialarabic" [0xFE8B] .nil) k!"Upsilonacutehooksymbolgreek" [0x03D3] (.node .nil k!"blacklenticularbracketright" [0x3011] .nil)) k!"cornerbracketrighthalfwidth" [0xFF63] (.node (.node .nil k!"dblanglebracketleftvertical" [0xFE3D] .nil) k!"eightcircleinversesansserif" [0x2791] (.node .nil k!"glottalstopreversedsuperior" [0x02E4] .nil))) k!"hehhamzaaboveisolatedarabic" [0xFBA4] (.node (.node (.node .nil k!"semivoicedmarkkanahalfwidth" [0xFF9F] .nil) k!"sevencircleinversesansserif" [0x2790] (.node .nil k!"threecircleinversesansserif" [0x278C] .nil)) k!"whitelenticularbracketright" [0x3017] (.node (.node .nil k!"blackuppointingsmalltriangle" [0x25B4] .nil) k!"dblanglebracketrightvertical" [0xFE3E] (.node .nil k!"katahiraprolongmarkhalfwidth" [0xFF70] .nil))))) k!"lamalefhamzaabovefinalarabic" [0xFEF8] (.node (.node (.node (.node (.node (.node .nil k!"lamalefhamzabelowfinalarabic" [0xFEFA] .nil) k!"lamalefmaddaabovefinalarabic" [0xFEF6] .nil) k!"squarediagonalcrosshatchfill" [0x25A9] (.node .nil k!"whiteuppointingsmalltriangle" [0x25B5] .nil)) k!"Chedescenderabkhasiancyrillic" [0x04BE] (.node (.node .nil k!"chedescenderabkhasiancyrillic" [0x04BF] .nil) k!"tortoiseshellbracketleftsmall" [0xFE5D] (.node .nil k!"whitetortoiseshellbracketleft" [0x3018] .nil))) k!"Upsilondieresishooksymbolgreek" [0x03D4] (.node (.node (.node .nil k!"ideographiccongratulationparen" [0x3237] .nil) k!"kashidaautonosidebearingarabic" [0x0640] (.node .nil k!"squareorthogonalcrosshatchfill" [0x25A6] .nil)) k!"tortoiseshellbracketrightsmall" [0xFE5E] (.node (.node .nil k!"whitecornerbracketleftvertical" [0xFE43] .nil) k!"whitedownpointingsmalltriangle" [0x25BF] (.node .nil k!"whiteleftpointingsmalltriangle" [0x25C3] .nil)))) k!"whitetortoiseshellbracketright" [0x3019] (.node (.node (.node (.node .nil k!"lamalefhamzaaboveisolatedarabic" [0xFEF7] .nil) k!"lamalefhamzabelowisolatedarabic" [0xFEF9] (.node .nil k!"lamalefmaddaaboveisolatedarabic" [0xFEF5] .nil)) k!"sallallahoualayhewasallamarabic" [0xFDFA] (.node (.node .nil k!"squareupperlefttolowerrightfill" [0x25A7] .nil) k!"squareupperrighttolowerleftfill" [0x25A8] (.node .nil k!"whitecornerbracketrightvertical" [0xFE44] .nil))) k!"whiterightpointingsmalltriangle" [0x25B9] (.node (.node (.node .nil k!"tortoiseshellbracketleftvertical" [0xFE39] .nil) k!"sixteencurrencydenominatorbengali" [0x09F9] (.node .nil k!"tortoiseshellbracketrightvertical" [0xFE3A] .nil)) k!"blacklenticularbracketleftvertical" [0xFE3B] (.node (.node .nil k!"blacklenticularbracketrightvertical" [0xFE3C] .nil) k!"denominatorminusonenumeratorbengali" [0x09F8] (.node .nil k!"whitediamondcontainingblacksmalldiamond" [0x25C8] .nil)))))

/-- `AGL`, codecs/agl.py, as a search tree by the keys of the names (4281 entries). -/
def aglTree : GlyphTree :=
  .node (.node (.node (.node (.node (.node aglTree0 k!"Xi" [0x039E] aglTree1) k!"Edot" [0x0116] (.node aglTree2 k!"Sigma" [0x03A3] aglTree3)) k!"sheva" [0x05B0] (.node (.node aglTree4 k!"Lambda" [0x039B] aglTree5) k!"dagesh" [0x05BC] (.node aglTree6 k!"ogonek" [0x02DB] aglTree7))) k!"Btopbar" [0x0182] (.node (.node (.node aglTree8 k!"chadeva" [0x091B] aglTree9) k!"ncircle" [0x24DD] (.node aglTree10 k!"wturned" [0x028D] aglTree11)) k!"SF510000" [0x2552] (.node (.node aglTree12 k!"gravecmb" [0x0300] aglTree13) k!"qamats29" [0x05B8] (.node aglTree14 k!"Deicoptic" [0x03EE] aglTree15)))) k!"afii10029" [0x041B] (.node (.node (.node (.node aglTree16 k!"afii10096" [0x044E] aglTree17) k!"afii57440" [0x0640] (.node aglTree18 k!"afii57723" [0xFB35] aglTree19)) k!"controlLF" [0x000A] (.node (.node aglTree20 k!"iibengali" [0x0988] aglTree21) k!"odieresis" [0x00F6] (.node aglTree22 k!"squaremil" [0x33D5] aglTree23))) k!"yoikorean" [0x3189] (.node (.node (.node aglTree24 k!"Klinebelow" [0x1E34] aglTree25) k!"adotmacron" [0x01E1] (.node aglTree26 k!"controlETX" [0x0003] aglTree27)) k!"fmonospace" [0xFF46] (.node (.node aglTree28 k!"kahiragana" [0x304B] aglTree29) k!"nokatakana" [0x30CE] (.node aglTree30 k!"rohiragana" [0x308D] aglTree31))))) k!"tuhiragana" [0x3064] (.node (.node (.node (.node (.node aglTree32 k!"zihiragana" [0x3058] aglTree33) k!"Scircumflex" [0x015C] (.node aglTree34 k!"ddagurmukhi" [0x0A21] aglTree35)) k!"kenarmenian" [0x056F] (.node (.node aglTree36 k!"psicyrillic" [0x0471] aglTree37) k!"utildebelow" [0x1E75] (.node aglTree38 k!"arrowdblleft" [0x21D0] aglTree39))) k!"hatafsegol30" [0x05B1] (.node (.node (.node aglTree40 k!"registersans" [0xF8E8] aglTree41) k!"Uhungarumlaut" [0x0170] (.node aglTree42 k!"hatafqamats28" [0x05B3] aglTree43)) k!"shchacyrillic" [0x0449] (.node (.node aglTree44 k!"angkhankhuthai" [0x0E5A] aglTree45) k!"hahfinalarabic" [0xFEA2] (.node aglTree46 k!"reshhatafpatah" [0x05E8, 0x05B2] aglTree47)))) k!"Izhitsacyrillic" [0x0474] (.node (.node (.node (.node aglTree48 k!"jeemfinalarabic" [0xFE9E] aglTree49) k!"squarekmcapital" [0x33CE] (.node aglTree50 k!"acircumflexgrave" [0x1EA7] aglTree51)) k!"lessorequivalent" [0x2272] (.node (.node aglTree52 k!"thousandcyrillic" [0x0482] aglTree53) k!"ivowelsignbengali" [0x09BF] (.node aglTree54 k!"ustraightcyrillic" [0x04AF] aglTree55))) k!"nieunpansioskorean" [0x3168] (.node (.node (.node aglTree56 k!"asymptoticallyequal" [0x2243] aglTree57) k!"pefinaldageshhebrew" [0xFB43] (.node aglTree58 k!"bracketleftmonospace" [0xFF3B] aglTree59)) k!"zhedescendercyrillic" [0x0497] (.node (.node aglTree60 k!"decimalseparatorarabic" [0x066B] aglTree61) k!"voicediterationhiragana" [0x309E] (.node aglTree62 k!"whitedownpointingtriangle" [0x25BD] aglTree63)))))

/-- Part of `ZAPFDINGBATS_GL`, codecs/zapfdingbatsgl.py. -/
def zapfTree0 : GlyphTree :=
  .node (.node .nil k!"a1" [0x2701] .nil) k!"a2" [0x2702] (.node .nil k!"a3" [0x2704] .nil)

/-- Part of `ZAPFDINGBATS_GL`, codecs/zapfdingbatsgl.py. -/
def zapfTree1 : GlyphTree :=
  .node (.node .nil k!"a5" [0x2706] .nil) k!"a6" [0x271D] .nil

/-- Part of `ZAPFDINGBATS_GL`, codecs/zapfdingbatsgl.py. -/
def zapfTree2 : GlyphTree :=
  .node (.node .nil k!"a8" [0x271F] .nil) k!"a9" [0x2720] .nil

/-- Part of `ZAPFDINGBATS_GL`, codecs/zapfdingbatsgl.py. -/
def zapfTree3 : GlyphTree :=
  .node (.node .nil k!"a11" [0x261B] .nil) k!"a12" [0x261E] .nil

/-- Part of `ZAPFDINGBATS_GL`, codecs/zapfdingbatsgl.py. -/
def zapfTree4 : GlyphTree :=
  .node (.node .nil k!"a14" [0x270D] .nil) k!"a15" [0x270E] (.node .nil k!"a16" [0x270F] .nil)

/-- Part of `ZAPFDINGBATS_GL`, codecs/zapfdingbatsgl.py. -/
def zapfTree5 : GlyphTree :=
  .node (.node .nil k!"a18" [0x2712] .nil) k!"a19" [0x2713] .nil

/-- Part of `ZAPFDINGBATS_GL`, codecs/zapfdingbatsgl.py. -/
def zapfTree6 : GlyphTree :=
  .node (.node .nil k!"a21" [0x2715] .nil) k!"a22" [0x2716] .nil

/-- Part of `ZAPFDINGBATS_GL`, codecs/zapfdingbatsgl.py. -/
def zapfTree7 : GlyphTree :=
  .node (.node .nil k!"a24" [0x2718] .nil) k!"a25" [0x2719] .nil

/-- Part of `ZAPFDINGBATS_GL`, codecs/zapfdingbatsgl.py. -/
def zapfTree8 : GlyphTree :=
  .node (.node .nil k!"a27" [0x271B] .nil) k!"a28" [0x271C] (.node .nil k!"a29" [0x2722] .nil)

/-- Part of `ZAPFDINGBATS_GL`, codecs/zapfdingbatsgl.py. -/
def zapfTree9 : GlyphTree :=
  .node (.node .nil k!"a31" [0x2724] .nil) k!"a32" [0x2725] .nil

/-- Part of `ZAPFDINGBATS_GL`, codecs/zapfdingbatsgl.py. -/
def zapfTree10 : GlyphTree :=
  .node (.node .nil k!"a34" [0x2727] .nil) k!"a35" [0x2605] .nil

/-- Part of `ZAPFDINGBATS_GL`, codecs/zapfdingbatsgl.py. -/
def zapfTree11 : GlyphTree :=
  .node (.node .nil k!"a37" [0x272A] .nil) k!"a38" [0x272B] .nil

/-- Part of `ZAPFDINGBATS_GL`, codecs/zapfdingbatsgl.py. -/
def zapfTree12 : GlyphTree :=
  .node (.node .nil k!"a40" [0x272D] .nil) k!"a41" [0x272E] .nil

/-- Part of `ZAPFDINGBATS_GL`, codecs/zapfdingbatsgl.py. -/
def zapfTree13 : GlyphTree :=
  .node (.node .nil k!"a43" [0x2730] .nil) k!"a44" [0x2731] .nil

/-- Part of `ZAPFDINGBATS_GL`, codecs/zapfdingbatsgl.py. -/
def zapfTree14 : GlyphTree :=
  .node (.node .nil k!"a46" [0x2733] .nil) k!"a47" [0x2734] .nil

/-- Part of `ZAPFDINGBATS_GL`, codecs/zapfdingbatsgl.py. -/
def zapfTree15 : GlyphTree :=
  .node (.node .nil k!"a49" [0x2736] .nil) k!"a50" [0x2737] .nil

/-- Part of `ZAPFDINGBATS_GL`, codecs/zapfdingbatsgl.py. -/
def zapfTree16 : GlyphTree :=
  .node (.node .nil k!"a52" [0x2739] .nil) k!"a53" [0x273A] (.node .nil k!"a54" [0x273B] .nil)

/-- Part of `ZAPFDINGBATS_GL`, codecs/zapfdingbatsgl.py. -/
def zapfTree17 : GlyphTree :=
  .node (.node .nil k!"a56" [0x273D] .nil) k!"a57" [0x273E] .nil

/-- Part of `ZAPFDINGBATS_GL`, codecs/zapfdingbatsgl.py. -/
def zapfTree18 : GlyphTree :=
  .node (.node .nil k!"a59" [0x2740] .nil) k!"a60" [0x2741] .nil

/-- Part of `ZAPFDINGBATS_GL`, codecs/zapfdingbatsgl.py. -/
def zapfTree19 : GlyphTree :=
  .node (.node .nil k!"a62" [0x2743] .nil) k!"a63" [0x2744] .nil

/-- Part of `ZAPFDINGBATS_GL`, codecs/zapfdingbatsgl.py. -/
def zapfTree20 : GlyphTree :=
  .node (.node .nil k!"a65" [0x2746] .nil) k!"a66" [0x2747] .nil

/-- Part of `ZAPFDINGBATS_GL`, codecs/zapfdingbatsgl.py. -/
def zapfTree21 : GlyphTree :=
  .node (.node .nil k!"a68" [0x2749] .nil) k!"a69" [0x274A] .nil

/-- Part of `ZAPFDINGBATS_GL`, codecs/zapfdingbatsgl.py. -/
def zapfTree22 : GlyphTree :=
  .node (.node .nil k!"a71" [0x25CF] .nil) k!"a72" [0x274D] .nil

/-- Part of `ZAPFDINGBATS_GL`, codecs/zapfdingbatsgl.py. -/
def zapfTree23 : GlyphTree :=
  .node (.node .nil k!"a74" [0x274F] .nil) k!"a75" [0x2751] .nil

/-- Part of `ZAPFDINGBATS_GL`, codecs/zapfdingbatsgl.py. -/
def zapfTree24 : GlyphTree :=
  .node (.node .nil k!"a77" [0x25BC] .nil) k!"a78" [0x25C6] (.node .nil k!"a79" [0x2756] .nil)

/-- Part of `ZAPFDINGBATS_GL`, codecs/zapfdingbatsgl.py. -/
def zapfTree25 : GlyphTree :=
  .node (.node .nil k!"a82" [0x2758] .nil) k!"a83" [0x2759] .nil

/-- Part of `ZAPFDINGBATS_GL`, codecs/zapfdingbatsgl.py. -/
def zapfTree26 : GlyphTree :=
  .node (.node .nil k!"a85" [0x276F] .nil) k!"a86" [0x2771] .nil

/-- Part of `ZAPFDINGBATS_GL`, codecs/zapfdingbatsgl.py. -/
def zapfTree27 : GlyphTree :=
  .node (.node .nil k!"a88" [0x2773] .nil) k!"a89" [0x2768] .nil

/-- Part of `ZAPFDINGBATS_GL`, codecs/zapfdingbatsgl.py. -/
def zapfTree28 : GlyphTree :=
  .node (.node .nil k!"a91" [0x276C] .nil) k!"a92" [0x276D] .nil

/-- Part of `ZAPFDINGBATS_GL`, codecs/zapfdingbatsgl.py. -/
def zapfTree29 : GlyphTree :=
  .node (.node .nil k!"a94" [0x276B] .nil) k!"a95" [0x2774] .nil

/-- Part of `ZAPFDINGBATS_GL`, codecs/zapfdingbatsgl.py. -/
def zapfTree30 : GlyphTree :=
  .node (.node .nil k!"a97" [0x275B] .nil) k!"a98" [0x275C] .nil

/-- Part of `ZAPFDINGBATS_GL`, codecs/zapfdingbatsgl.py. -/
def zapfTree31 : GlyphTree :=
  .node (.node .nil k!"a100" [0x275E] .nil) k!"a101" [0x2761] .nil

/-- Part of `ZAPFDINGBATS_GL`, codecs/zapfdingbatsgl.py. -/
def zapfTree32 : GlyphTree :=
  .node (.node .nil k!"a103" [0x2763] .nil) k!"a104" [0x2764] (.node .nil k!"a105" [0x2710] .nil)

/-- Part of `ZAPFDINGBATS_GL`, codecs/zapfdingbatsgl.py. -/
def zapfTree33 : GlyphTree :=
  .node (.node .nil k!"a107" [0x2766] .nil) k!"a108" [0x2767] .nil

/-- Part of `ZAPFDINGBATS_GL`, codecs/zapfdingbatsgl.py. -/
def zapfTree34 : GlyphTree :=
  .node (.node .nil k!"a110" [0x2665] .nil) k!"a111" [0x2666] .nil

/-- Part of `ZAPFDINGBATS_GL`, codecs/zapfdingbatsgl.py. -/
def zapfTree35 : GlyphTree :=
  .node (.node .nil k!"a117" [0x2709] .nil) k!"a118" [0x2708] .nil

/-- Part of `ZAPFDINGBATS_GL`, codecs/zapfdingbatsgl.py. -/
def zapfTree36 : GlyphTree :=
  .node (.node .nil k!"a120" [0x2460] .nil) k!"a121" [0x2461] (.node .nil k!"a122" [0x2462] .nil)

/-- Part of `ZAPFDINGBATS_GL`, codecs/zapfdingbatsgl.py. -/
def zapfTree37 : GlyphTree :=
  .node (.node .nil k!"a124" [0x2464] .nil) k!"a125" [0x2465] .nil

/-- Part of `ZAPFDINGBATS_GL`, codecs/zapfdingbatsgl.py. -/
def zapfTree38 : GlyphTree :=
  .node (.node .nil k!"a127" [0x2467] .nil) k!"a128" [0x2468] .nil

/-- Part of `ZAPFDINGBATS_GL`, codecs/zapfdingbatsgl.py. -/
def zapfTree39 : GlyphTree :=
  .node (.node .nil k!"a130" [0x2776] .nil) k!"a131" [0x2777] .nil

/-- Part of `ZAPFDINGBATS_GL`, codecs/zapfdingbatsgl.py. -/
def zapfTree40 : GlyphTree :=
  .node (.node .nil k!"a133" [0x2779] .nil) k!"a134" [0x277A] (.node .nil k!"a135" [0x277B] .nil)

/-- Part of `ZAPFDINGBATS_GL`, codecs/zapfdingbatsgl.py. -/
def zapfTree41 : GlyphTree :=
  .node (.node .nil k!"a137" [0x277D] .nil) k!"a138" [0x277E] .nil

/-- Part of `ZAPFDINGBATS_GL`, codecs/zapfdingbatsgl.py. -/
def zapfTree42 : GlyphTree :=
  .node (.node .nil k!"a140" [0x2780] .nil) k!"a141" [0x2781] .nil

/-- Part of `ZAPFDINGBATS_GL`, codecs/zapfdingbatsgl.py. -/
def zapfTree43 : GlyphTree :=
  .node (.node .nil k!"a143" [0x2783] .nil) k!"a144" [0x2784] .nil

/-- Part of `ZAPFDINGBATS_GL`, codecs/zapfdingbatsgl.py. -/
def zapfTree44 : GlyphTree :=
  .node (.node .nil k!"a146" [0x2786] .nil) k!"a147" [0x2787] .nil

/-- Part of `ZAPFDINGBATS_GL`, codecs/zapfdingbatsgl.py. -/
def zapfTree45 : GlyphTree :=
  .node (.node .nil k!"a149" [0x2789] .nil) k!"a150" [0x278A] .nil

/-- Part of `ZAPFDINGBATS_GL`, codecs/zapfdingbatsgl.py. -/
def zapfTree46 : GlyphTree :=
  .node (.node .nil k!"a152" [0x278C] .nil) k!"a153" [0x278D] .nil

/-- Part of `ZAPFDINGBATS_GL`, codecs/zapfdingbatsgl.py. -/
def zapfTree47 : GlyphTree :=
  .node (.node .nil k!"a155" [0x278F] .nil) k!"a156" [0x2790] .nil

/-- Part of `ZAPFDINGBATS_GL`, codecs/zapfdingbatsgl.py. -/
def zapfTree48 : GlyphTree :=
  .node (.node .nil k!"a158" [0x2792] .nil) k!"a159" [0x2793] (.node .nil k!"a160" [0x2794] .nil)

/-- Part of `ZAPFDINGBATS_GL`, codecs/zapfdingbatsgl.py. -/
def zapfTree49 : GlyphTree :=
  .node (.node .nil k!"a162" [0x27A3] .nil) k!"a163" [0x2194] .nil

/-- Part of `ZAPFDINGBATS_GL`, codecs/zapfdingbatsgl.py. -/
def zapfTree50 : GlyphTree :=
  .node (.node .nil k!"a165" [0x2799] .nil) k!"a166" [0x279B] .nil

/-- Part of `ZAPFDINGBATS_GL`, codecs/zapfdingbatsgl.py. -/
def zapfTree51 : GlyphTree :=
  .node (.node .nil k!"a168" [0x279D] .nil) k!"a169" [0x279E] .nil

/-- Part of `ZAPFDINGBATS_GL`, codecs/zapfdingbatsgl.py. -/
def zapfTree52 : GlyphTree :=
  .node (.node .nil k!"a171" [0x27A0] .nil) k!"a172" [0x27A1] .nil

/-- Part of `ZAPFDINGBATS_GL`, codecs/zapfdingbatsgl.py. -/
def zapfTree53 : GlyphTree :=
  .node (.node .nil k!"a174" [0x27A4] .nil) k!"a175" [0x27A5] .nil

/-- Part of `ZAPFDINGBATS_GL`, codecs/zapfdingbatsgl.py. -/
def zapfTree54 : GlyphTree :=
  .node (.node .nil k!"a177" [0x27A7] .nil) k!"a178" [0x27A8] .nil

/-- Part of `ZAPFDINGBATS_GL`, codecs/zapfdingbatsgl.py. -/
def zapfTree55 : GlyphTree :=
  .node (.node .nil k!"a180" [0x27AB] .nil) k!"a181" [0x27AD] .nil

/-- Part of `ZAPFDINGBATS_GL`, codecs/zapfdingbatsgl.py. -/
def zapfTree56 : GlyphTree :=
  .node (.node .nil k!"a183" [0x27B2] .nil) k!"a184" [0x27B3] (.node .nil k!"a185" [0x27B5] .nil)

/-- Part of `ZAPFDINGBATS_GL`, codecs/zapfdingbatsgl.py. -/
def zapfTree57 : GlyphTree :=
  .node (.node .nil k!"a187" [0x27BA] .nil) k!"a188" [0x27BB] .nil

/-- Part of `ZAPFDINGBATS_GL`, codecs/zapfdingbatsgl.py. -/
def zapfTree58 : GlyphTree :=
  .node (.node .nil k!"a190" [0x27BD] .nil) k!"a191" [0x27BE] .nil

/-- Part of `ZAPFDINGBATS_GL`, codecs/zapfdingbatsgl.py. -/
def zapfTree59 : GlyphTree :=
  .node (.node .nil k!"a193" [0x27AA] .nil) k!"a194" [0x27B6] .nil

/-- Part of `ZAPFDINGBATS_GL`, codecs/zapfdingbatsgl.py. -/
def zapfTree60 : GlyphTree :=
  .node (.node .nil k!"a196" [0x2798] .nil) k!"a197" [0x27B4] .nil

/-- Part of `ZAPFDINGBATS_GL`, codecs/zapfdingbatsgl.py. -/
def zapfTree61 : GlyphTree :=
  .node (.node .nil k!"a199" [0x27AC] .nil) k!"a200" [0x27AE] .nil

/-- Part of `ZAPFDINGBATS_GL`, codecs/zapfdingbatsgl.py. -/
def zapfTree62 : GlyphTree :=
  .node (.node .nil k!"a202" [0x2703] .nil) k!"a203" [0x2750] .nil

/-- Part of `ZAPFDINGBATS_GL`, codecs/zapfdingbatsgl.py. -/
def zapfTree63 : GlyphTree :=
  .node (.node .nil k!"a205" [0x276E] .nil) k!"a206" [0x2770] .nil

/-- `ZAPFDINGBATS_GL`, codecs/zapfdingbatsgl.py, as a search tree by the keys of the names (201 entries). -/
def zapfTree : GlyphTree :=
  .node (.node (.node (.node (.node (.node zapfTree0 k!"a4" [0x260E] zapfTree1) k!"a7" [0x271E] (.node zapfTree2 k!"a10" [0x2721] zapfTree3)) k!"a13" [0x270C] (.node (.node zapfTree4 k!"a17" [0x2711] zapfTree5) k!"a20" [0x2714] (.node zapfTree6 k!"a23" [0x2717] zapfTree7))) k!"a26" [0x271A] (.node (.node (.node zapfTree8 k!"a30" [0x2723] zapfTree9) k!"a33" [0x2726] (.node zapfTree10 k!"a36" [0x2729] zapfTree11)) k!"a39" [0x272C] (.node (.node zapfTree12 k!"a42" [0x272F] zapfTree13) k!"a45" [0x2732] (.node zapfTree14 k!"a48" [0x2735] zapfTree15)))) k!"a51" [0x2738] (.node (.node (.node (.node zapfTree16 k!"a55" [0x273C] zapfTree17) k!"a58" [0x273F] (.node zapfTree18 k!"a61" [0x2742] zapfTree19)) k!"a64" [0x2745] (.node (.node zapfTree20 k!"a67" [0x2748] zapfTree21) k!"a70" [0x274B] (.node zapfTree22 k!"a73" [0x25A0] zapfTree23))) k!"a76" [0x25B2] (.node (.node (.node zapfTree24 k!"a81" [0x25D7] zapfTree25) k!"a84" [0x275A] (.node zapfTree26 k!"a87" [0x2772] zapfTree27)) k!"a90" [0x2769] (.node (.node zapfTree28 k!"a93" [0x276A] zapfTree29) k!"a96" [0x2775] (.node zapfTree30 k!"a99" [0x275D] zapfTree31))))) k!"a102" [0x2762] (.node (.node (.node (.node (.node zapfTree32 k!"a106" [0x2765] zapfTree33) k!"a109" [0x2660] (.node zapfTree34 k!"a112" [0x2663] zapfTree35)) k!"a119" [0x2707] (.node (.node zapfTree36 k!"a123" [0x2463] zapfTree37) k!"a126" [0x2466] (.node zapfTree38 k!"a129" [0x2469] zapfTree39))) k!"a132" [0x2778] (.node (.node (.node zapfTree40 k!"a136" [0x277C] zapfTree41) k!"a139" [0x277F] (.node zapfTree42 k!"a142" [0x2782] zapfTree43)) k!"a145" [0x2785] (.node (.node zapfTree44 k!"a148" [0x2788] zapfTree45) k!"a151" [0x278B] (.node zapfTree46 k!"a154" [0x278E] zapfTree47)))) k!"a157" [0x2791] (.node (.node (.node (.node zapfTree48 k!"a161" [0x2192] zapfTree49) k!"a164" [0x2195] (.node zapfTree50 k!"a167" [0x279C] zapfTree51)) k!"a170" [0x279F] (.node (.node zapfTree52 k!"a173" [0x27A2] zapfTree53) k!"a176" [0x27A6] (.node zapfTree54 k!"a179" [0x27A9] zapfTree55))) k!"a182" [0x27AF] (.node (.node (.node zapfTree56 k!"a186" [0x27B8] zapfTree57) k!"a189" [0x27BC] (.node zapfTree58 k!"a192" [0x279A] zapfTree59)) k!"a195" [0x27B9] (.node (.node zapfTree60 k!"a198" [0x27B7] zapfTree61) k!"a201" [0x27B1] (.node zapfTree62 k!"a204" [0x2752] zapfTree63)))))

end PdfReader
