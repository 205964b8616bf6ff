import Verif.Model.AddressFormat
/-
  The formats the library is built with: src/addressformatrc, read from ":/org.kde.kcontacts/addressformatrc" (addressformat.cpp:104-113).
  Generated by tools/gen_formats.py; the escape `\\\\` of the file is replaced by `\\` as KConfig does.
-/
namespace KC
set_option maxRecDepth 100000

/-- The groups of src/addressformatrc with their entries, in the order of the file. -/
def shippedGroups : List (QString × List (QString × QString)) :=
  [(q! "AD", [(q! "AddressFormat", q! "%N%n%O%n%A%n%Z %C"),
     (q! "PostalCodeFormat", q! "AD[1-7]0\\d")]),
   (q! "AE", [(q! "AddressFormat", q! "%N%n%O%n%A%n%S"),
     (q! "LatinAddressFormat", q! "%N%n%O%n%A%n%S"),
     (q! "Required", q! "AS")]),
   (q! "AF", [(q! "AddressFormat", q! "%N%n%O%n%A%n%C%n%Z"),
     (q! "PostalCodeFormat", q! "\\d{4}")]),
   (q! "AI", [(q! "AddressFormat", q! "%N%n%O%n%A%n%C%n%Z"),
     (q! "PostalCodeFormat", q! "(?:AI-)?2640")]),
   (q! "AL", [(q! "AddressFormat", q! "%N%n%O%n%A%n%Z%n%C"),
     (q! "PostalCodeFormat", q! "\\d{4}")]),
   (q! "AM", [(q! "AddressFormat", q! "%N%n%O%n%A%n%Z%n%C%n%S"),
     (q! "LatinAddressFormat", q! "%N%n%O%n%A%n%Z%n%C%n%S"),
     (q! "PostalCodeFormat", q! "(?:37)?\\d{4}")]),
   (q! "AR", [(q! "AddressFormat", q! "%N%n%O%nCasilla de Correo %P%n%A%n%Z %C%n%S"),
     (q! "Upper", q! "ACZ"),
     (q! "PostalCodeFormat", q! "((?:[A-HJ-NP-Z])?\\d{4})([A-Z]{3})?")]),
   (q! "AS", [(q! "AddressFormat", q! "%N%n%O%n%A%n%C %S %Z"),
     (q! "Upper", q! "ACNOS"),
     (q! "Required", q! "ACSZ"),
     (q! "PostalCodeFormat", q! "(96799)(?:[ \\-](\\d{4}))?")]),
   (q! "AT", [(q! "AddressFormat", q! "%O%n%N%nPostfach %P%n%A%n%Z %C"),
     (q! "BusinessAddressFormat", q! "%O%nz.Hd. %N%nPostfach %P%n%A%n%Z %C"),
     (q! "PostalCodeFormat", q! "\\d{4}")]),
   (q! "AU", [(q! "AddressFormat", q! "%O%n%N%n%A%nPO BOX %P%n%C %S %Z"),
     (q! "Upper", q! "CSR"),
     (q! "Required", q! "ACSZ"),
     (q! "PostalCodeFormat", q! "\\d{4}")]),
   (q! "AX", [(q! "AddressFormat", q! "%O%n%N%nPB %P%n%A%nAX-%Z %C%n%R"),
     (q! "Required", q! "ACZ"),
     (q! "Upper", q! "R"),
     (q! "PostalCodeFormat", q! "22\\d{3}")]),
   (q! "AZ", [(q! "AddressFormat", q! "%N%n%O%n%A%nAZ %Z %C"),
     (q! "PostalCodeFormat", q! "\\d{4}")]),
   (q! "BA", [(q! "AddressFormat", q! "%N%n%O%n%A%n%Z %C"),
     (q! "PostalCodeFormat", q! "\\d{5}")]),
   (q! "BB", [(q! "AddressFormat", q! "%N%n%O%n%A%n%C, %S %Z"),
     (q! "PostalCodeFormat", q! "BB\\d{5}")]),
   (q! "BD", [(q! "AddressFormat", q! "%N%n%O%n%A%n%C - %Z"),
     (q! "PostalCodeFormat", q! "\\d{4}")]),
   (q! "BE", [(q! "AddressFormat", q! "%O%n%N%n%A%nPO Box %P%n%Z %C"),
     (q! "AddressFormat[de]", q! "%O%n%N%n%A%nPostfach %P%n%Z %C"),
     (q! "AddressFormat[fr]", q! "%O%n%N%n%A%nBP %P%n%Z %C"),
     (q! "AddressFormat[nl]", q! "%O%n%N%n%A%nPostbus %P%n%Z %C"),
     (q! "Upper", q! "R"),
     (q! "Required", q! "ACZ"),
     (q! "PostalCodeFormat", q! "\\d{4}")]),
   (q! "BF", [(q! "AddressFormat", q! "%N%n%O%n%A%n%C %X")]),
   (q! "BG", [(q! "AddressFormat", q! "%N%n%O%n%A%n%Z %C"),
     (q! "PostalCodeFormat", q! "\\d{4}")]),
   (q! "BH", [(q! "AddressFormat", q! "%N%n%O%n%A%n%C %Z"),
     (q! "PostalCodeFormat", q! "(?:\\d|1[0-2])\\d{2}")]),
   (q! "BL", [(q! "AddressFormat", q! "%O%n%N%n%A%nBP %P%n%Z %C %X"),
     (q! "Upper", q! "ACXR"),
     (q! "Required", q! "ACZ"),
     (q! "PostalCodeFormat", q! "9[78][01]\\d{2}")]),
   (q! "BM", [(q! "AddressFormat", q! "%N%n%O%n%A%n%C %Z"),
     (q! "PostalCodeFormat", q! "[A-Z]{2} ?[A-Z0-9]{2}")]),
   (q! "BN", [(q! "AddressFormat", q! "%N%n%O%n%A%n%C %Z"),
     (q! "PostalCodeFormat", q! "[A-Z]{2} ?\\d{4}")]),
   (q! "BR", [(q! "AddressFormat", q! "%O%n%N%nCaixa Postal %P%n%A%n%D%n%C-%S%n%Z"),
     (q! "Upper", q! "CS"),
     (q! "Required", q! "ASCZ"),
     (q! "PostalCodeFormat", q! "\\d{5}-?\\d{3}")]),
   (q! "BS", [(q! "AddressFormat", q! "%N%n%O%n%A%n%C, %S")]),
   (q! "BT", [(q! "AddressFormat", q! "%N%n%O%n%A%n%C %Z"),
     (q! "PostalCodeFormat", q! "\\d{5}")]),
   (q! "BY", [(q! "AddressFormat", q! "%O%n%N%n%A%n%Z, %C%n%S"),
     (q! "PostalCodeFormat", q! "\\d{6}")]),
   (q! "CA", [(q! "AddressFormat", q! "%N%n%O%n%A%nPO BOX %P%n%C %S %Z"),
     (q! "Upper", q! "ACNOSZR"),
     (q! "Required", q! "ACSZ"),
     (q! "PostalCodeFormat", q! "[ABCEGHJKLMNPRSTVXY]\\d[ABCEGHJ-NPRSTV-Z] ?\\d[ABCEGHJ-NPRSTV-Z]\\d")]),
   (q! "CC", [(q! "AddressFormat", q! "%O%n%N%n%A%n%C %S %Z"),
     (q! "Upper", q! "CS"),
     (q! "PostalCodeFormat", q! "6799")]),
   (q! "CH", [(q! "AddressFormat", q! "%O%n%N%nP.O. Box %P%n%A%n%Z %C"),
     (q! "AddressFormat[de]", q! "%O%n%N%nPostfach %P%n%A%n%Z %C"),
     (q! "AddressFormat[fr]", q! "%O%n%N%nCase postale %P%n%A%n%Z %C"),
     (q! "AddressFormat[it]", q! "%O%n%N%nCasella postale %P%n%A%n%Z %C"),
     (q! "Upper", q! "R"),
     (q! "Required", q! "ACZ"),
     (q! "PostalCodeFormat", q! "\\d{4}")]),
   (q! "CI", [(q! "AddressFormat", q! "%N%n%O%n%X %A %C %X")]),
   (q! "CL", [(q! "AddressFormat", q! "%N%n%O%n%A%n%Z %C%n%S"),
     (q! "PostalCodeFormat", q! "\\d{7}")]),
   (q! "CN", [(q! "AddressFormat", q! "%Z%n%S%C%D%n%A%n%O%n%N"),
     (q! "LatinAddressFormat", q! "%N%n%O%n%A%n%D%n%C%n%S, %Z"),
     (q! "Upper", q! "S"),
     (q! "Required", q! "ACSZ"),
     (q! "PostalCodeFormat", q! "\\d{6}")]),
   (q! "CO", [(q! "AddressFormat", q! "%N%n%O%n%A%n%C, %S, %Z"),
     (q! "Required", q! "AS"),
     (q! "PostalCodeFormat", q! "\\d{6}")]),
   (q! "CR", [(q! "AddressFormat", q! "%N%n%O%n%A%n%S, %C%n%Z"),
     (q! "Required", q! "ACS"),
     (q! "PostalCodeFormat", q! "\\d{4,5}|\\d{3}-\\d{4}")]),
   (q! "CU", [(q! "AddressFormat", q! "%N%n%O%n%A%n%C %S%n%Z"),
     (q! "PostalCodeFormat", q! "\\d{5}")]),
   (q! "CV", [(q! "AddressFormat", q! "%N%n%O%n%A%n%Z %C%n%S"),
     (q! "PostalCodeFormat", q! "\\d{4}")]),
   (q! "CX", [(q! "AddressFormat", q! "%O%n%N%n%A%n%C %S %Z"),
     (q! "Upper", q! "CS"),
     (q! "PostalCodeFormat", q! "6798")]),
   (q! "CY", [(q! "AddressFormat", q! "%N%n%O%n%A%n%Z %C"),
     (q! "PostalCodeFormat", q! "\\d{4}")]),
   (q! "CZ", [(q! "AddressFormat", [37, 78, 37, 110, 112, 46, 8201, 112, 46, 32, 37, 80, 37, 110, 37, 79, 37, 110, 37, 65, 37, 110, 37, 90, 32, 37, 67]),
     (q! "Upper", q! "R"),
     (q! "Required", q! "ACZ"),
     (q! "PostalCodeFormat", q! "\\d{3} ?\\d{2}")]),
   (q! "DE", [(q! "AddressFormat", q! "%N%n%O%nPostfach %P%n%A%n%Z %C"),
     (q! "AddressFormat[nds]", q! "%N%n- %O -%nPostfach %P%n%A%n%Z %C"),
     (q! "Upper", q! "R"),
     (q! "Required", q! "ACZ"),
     (q! "PostalCodeFormat", q! "\\d{5}")]),
   (q! "DK", [(q! "AddressFormat", q! "%N%n%O%n%A%nPostboks %P%n%Z %C"),
     (q! "Required", q! "ACZ"),
     (q! "PostalCodeFormat", q! "\\d{4}")]),
   (q! "DO", [(q! "AddressFormat", q! "%N%n%O%n%A%n%Z %C"),
     (q! "PostalCodeFormat", q! "\\d{5}")]),
   (q! "DZ", [(q! "AddressFormat", q! "%N%n%O%n%A%n%Z %C"),
     (q! "PostalCodeFormat", q! "\\d{5}")]),
   (q! "EC", [(q! "AddressFormat", q! "%N%n%O%n%A%n%Z%n%C"),
     (q! "Upper", q! "CZ"),
     (q! "PostalCodeFormat", q! "\\d{6}")]),
   (q! "EE", [(q! "AddressFormat", q! "%N%n%O%n%A%n%Z %C"),
     (q! "Required", q! "ACZ"),
     (q! "PostalCodeFormat", q! "\\d{5}")]),
   (q! "EG", [(q! "AddressFormat", q! "%N%n%O%n%A%n%C%n%S%n%Z"),
     (q! "LatinAddressFormat", q! "%N%n%O%n%A%n%C%n%S%n%Z"),
     (q! "PostalCodeFormat", q! "\\d{5}")]),
   (q! "EH", [(q! "AddressFormat", q! "%N%n%O%n%A%n%Z %C"),
     (q! "PostalCodeFormat", q! "\\d{5}")]),
   (q! "ES", [(q! "AddressFormat", q! "%N%n%O%nApartado Postal %P%n%A%n%Z %C %S"),
     (q! "Upper", q! "CS"),
     (q! "Required", q! "ACSZ"),
     (q! "PostalCodeFormat", q! "\\d{5}")]),
   (q! "ET", [(q! "AddressFormat", q! "%N%n%O%n%A%n%Z %C"),
     (q! "PostalCodeFormat", q! "\\d{4}")]),
   (q! "FI", [(q! "AddressFormat", q! "%O%n%N%nPB %P%n%A%nFI-%Z %C"),
     (q! "Upper", q! "R"),
     (q! "Required", q! "ACZ"),
     (q! "PostalCodeFormat", q! "\\d{5}")]),
   (q! "FK", [(q! "AddressFormat", q! "%N%n%O%n%A%n%C%n%Z"),
     (q! "Upper", q! "CZ"),
     (q! "Required", q! "ACZ"),
     (q! "PostalCodeFormat", q! "FIQQ 1ZZ")]),
   (q! "FM", [(q! "AddressFormat", q! "%N%n%O%n%A%n%C %S %Z"),
     (q! "Upper", q! "ACNOS"),
     (q! "Required", q! "ACSZ"),
     (q! "PostalCodeFormat", q! "(9694[1-4])(?:[ \\-](\\d{4}))?")]),
   (q! "FO", [(q! "AddressFormat", q! "%N%n%O%n%A%nFO%Z %C"),
     (q! "PostalCodeFormat", q! "\\d{3}")]),
   (q! "FR", [(q! "AddressFormat", q! "%O%n%N%n%A%nBP %P%n%Z %C"),
     (q! "Upper", q! "CR"),
     (q! "Required", q! "ACZ"),
     (q! "PostalCodeFormat", q! "\\d{2} ?\\d{3}")]),
   (q! "GB", [(q! "AddressFormat", q! "%N%n%O%nPO Box %P%n%A%n%C%n%Z"),
     (q! "Upper", q! "CZR"),
     (q! "Required", q! "ACZ"),
     (q! "PostalCodeFormat", q! "GIR ?0AA|(?:(?:AB|AL|B|BA|BB|BD|BF|BH|BL|BN|BR|BS|BT|BX|CA|CB|CF|CH|CM|CO|CR|CT|CV|CW|DA|DD|DE|DG|DH|DL|DN|DT|DY|E|EC|EH|EN|EX|FK|FY|G|GL|GY|GU|HA|HD|HG|HP|HR|HS|HU|HX|IG|IM|IP|IV|JE|KA|KT|KW|KY|L|LA|LD|LE|LL|LN|LS|LU|M|ME|MK|ML|N|NE|NG|NN|NP|NR|NW|OL|OX|PA|PE|PH|PL|PO|PR|RG|RH|RM|S|SA|SE|SG|SK|SL|SM|SN|SO|SP|SR|SS|ST|SW|SY|TA|TD|TF|TN|TQ|TR|TS|TW|UB|W|WA|WC|WD|WF|WN|WR|WS|WV|YO|ZE)(?:\\d[\\dA-Z]? ?\\d[ABD-HJLN-UW-Z]{2}))|BFPO ?\\d{1,4}")]),
   (q! "GE", [(q! "AddressFormat", q! "%N%n%O%n%A%n%Z %C"),
     (q! "PostalCodeFormat", q! "\\d{4}")]),
   (q! "GF", [(q! "AddressFormat", q! "%O%n%N%n%A%n%Z %C %X"),
     (q! "Upper", q! "ACX"),
     (q! "Required", q! "ACZ"),
     (q! "PostalCodeFormat", q! "9[78]3\\d{2}")]),
   (q! "GG", [(q! "AddressFormat", q! "%N%n%O%n%A%n%C%nGUERNSEY%n%Z"),
     (q! "Upper", q! "CZ"),
     (q! "Required", q! "ACZ"),
     (q! "PostalCodeFormat", q! "GY\\d[\\dA-Z]? ?\\d[ABD-HJLN-UW-Z]{2}")]),
   (q! "GI", [(q! "AddressFormat", q! "%N%n%O%n%A%nGIBRALTAR%n%Z"),
     (q! "Required", q! "A"),
     (q! "PostalCodeFormat", q! "GX11 1AA")]),
   (q! "GL", [(q! "AddressFormat", q! "%N%n%O%n%A%n(Postboks %P%n%Z %C"),
     (q! "Required", q! "ACZ"),
     (q! "PostalCodeFormat", q! "39\\d{2}")]),
   (q! "GN", [(q! "AddressFormat", q! "%N%n%O%n%Z %A %C"),
     (q! "PostalCodeFormat", q! "\\d{3}")]),
   (q! "GP", [(q! "AddressFormat", q! "%O%n%N%n%A%n%Z %C %X"),
     (q! "Upper", q! "ACX"),
     (q! "Required", q! "ACZ"),
     (q! "PostalCodeFormat", q! "9[78][01]\\d{2}")]),
   (q! "GR", [(q! "AddressFormat", q! "%N%n%O%n%A%nP.O. BOX %P%n%Z %C"),
     (q! "Upper", q! "R"),
     (q! "Required", q! "ACZ"),
     (q! "PostalCodeFormat", q! "\\d{3} ?\\d{2}")]),
   (q! "GS", [(q! "AddressFormat", q! "%N%n%O%n%A%n%n%C%n%Z"),
     (q! "Upper", q! "CZ"),
     (q! "Required", q! "ACZ"),
     (q! "PostalCodeFormat", q! "SIQQ 1ZZ")]),
   (q! "GT", [(q! "AddressFormat", q! "%N%n%O%n%A%n%Z- %C"),
     (q! "PostalCodeFormat", q! "\\d{5}")]),
   (q! "GU", [(q! "AddressFormat", q! "%N%n%O%n%A%n%C %Z"),
     (q! "Upper", q! "ACNO"),
     (q! "Required", q! "ACZ"),
     (q! "PostalCodeFormat", q! "(969(?:[12]\\d|3[12]))(?:[ \\-](\\d{4}))?")]),
   (q! "GW", [(q! "AddressFormat", q! "%N%n%O%n%A%n%Z %C"),
     (q! "PostalCodeFormat", q! "\\d{4}")]),
   (q! "HK", [(q! "AddressFormat", q! "%S%n%C%n%A%n%O%n%N"),
     (q! "LatinAddressFormat", q! "%N%n%O%n%A%n%C%n%S"),
     (q! "Upper", q! "S"),
     (q! "Required", q! "AS")]),
   (q! "HM", [(q! "AddressFormat", q! "%O%n%N%n%A%n%C %S %Z"),
     (q! "Upper", q! "CS"),
     (q! "PostalCodeFormat", q! "\\d{4}")]),
   (q! "HN", [(q! "AddressFormat", q! "%N%n%O%n%A%n%C, %S%n%Z"),
     (q! "Required", q! "ACS"),
     (q! "PostalCodeFormat", q! "\\d{5}")]),
   (q! "HR", [(q! "AddressFormat", q! "%N%n%O%n%A%nHR-%Z %C"),
     (q! "PostalCodeFormat", q! "\\d{5}")]),
   (q! "HT", [(q! "AddressFormat", q! "%N%n%O%n%A%nHT%Z %C"),
     (q! "PostalCodeFormat", q! "\\d{4}")]),
   (q! "HU", [(q! "AddressFormat", q! "%N%n%O%n%C%n%A%nPF. %P%n%Z"),
     (q! "Upper", q! "ACNO"),
     (q! "Required", q! "ACZ"),
     (q! "PostalCodeFormat", q! "\\d{4}")]),
   (q! "ID", [(q! "AddressFormat", q! "%N%n%O%n%A%n%C%n%S %Z"),
     (q! "Required", q! "AS"),
     (q! "PostalCodeFormat", q! "\\d{5}")]),
   (q! "IE", [(q! "AddressFormat", q! "%N%n%O%n%A%n%D%n%C%n%S%n%Z"),
     (q! "PostalCodeFormat", q! "[\\dA-Z]{3} ?[\\dA-Z]{4}")]),
   (q! "IL", [(q! "AddressFormat", [37, 78, 37, 110, 37, 79, 1514, 46, 1491, 46, 32, 37, 80, 37, 110, 37, 110, 37, 65, 37, 110, 37, 67, 32, 37, 90]),
     (q! "PostalCodeFormat", q! "\\d{5}(?:\\d{2})?"),
     (q! "Upper", q! "R")]),
   (q! "IM", [(q! "AddressFormat", q! "%N%n%O%n%A%n%C%n%Z"),
     (q! "Upper", q! "CZ"),
     (q! "Required", q! "ACZ"),
     (q! "PostalCodeFormat", q! "IM\\d[\\dA-Z]? ?\\d[ABD-HJLN-UW-Z]{2}")]),
   (q! "IN", [(q! "AddressFormat", q! "%N%n%O%n%A%n%C %Z%n%S"),
     (q! "Required", q! "ACSZ"),
     (q! "PostalCodeFormat", q! "\\d{6}")]),
   (q! "IO", [(q! "AddressFormat", q! "%N%n%O%n%A%n%C%n%Z"),
     (q! "Upper", q! "CZ"),
     (q! "Required", q! "ACZ"),
     (q! "PostalCodeFormat", q! "BBND 1ZZ")]),
   (q! "IQ", [(q! "AddressFormat", q! "%O%n%N%n%A%n%C, %S%n%Z"),
     (q! "Upper", q! "CS"),
     (q! "Required", q! "ACS"),
     (q! "PostalCodeFormat", q! "\\d{5}")]),
   (q! "IR", [(q! "AddressFormat", q! "%O%n%N%n%S%n%C, %D%n%A%n%Z"),
     (q! "PostalCodeFormat", q! "\\d{5}-?\\d{5}")]),
   (q! "IS", [(q! "AddressFormat", q! "%N%n%O%n%A%n%Z %C"),
     (q! "PostalCodeFormat", q! "\\d{3}")]),
   (q! "IT", [(q! "AddressFormat", q! "%N%n%O%n%A%nCASELLA POSTALE %P%n%Z %C %S"),
     (q! "Upper", q! "CSR"),
     (q! "Required", q! "ACSZ"),
     (q! "PostalCodeFormat", q! "\\d{5}")]),
   (q! "JE", [(q! "AddressFormat", q! "%N%n%O%n%A%n%C%nJERSEY%n%Z"),
     (q! "Upper", q! "CZ"),
     (q! "PostalCodeFormat", q! "JE\\d[\\dA-Z]? ?\\d[ABD-HJLN-UW-Z]{2}")]),
   (q! "JM", [(q! "AddressFormat", q! "%N%n%O%n%A%n%C%n%S %X"),
     (q! "Required", q! "ACS")]),
   (q! "JO", [(q! "AddressFormat", q! "%N%n%O%n%A%n%C %Z"),
     (q! "PostalCodeFormat", q! "\\d{5}")]),
   (q! "JP", [(q! "AddressFormat", [37, 82, 37, 110, 12306, 37, 90, 37, 110, 37, 83, 37, 67, 37, 65, 37, 110, 37, 79, 37, 110, 37, 78]),
     (q! "LatinAddressFormat", q! "%N%n%O%n%A, %C%n%S %Z"),
     (q! "Upper", q! "SR"),
     (q! "Required", q! "ASZ"),
     (q! "PostalCodeFormat", q! "\\d{3}-?\\d{4}")]),
   (q! "KE", [(q! "AddressFormat", q! "%N%n%O%n%A%n%C%n%Z"),
     (q! "PostalCodeFormat", q! "\\d{5}")]),
   (q! "KG", [(q! "AddressFormat", q! "%N%n%O%n%A%n%Z %C"),
     (q! "PostalCodeFormat", q! "\\d{6}")]),
   (q! "KH", [(q! "AddressFormat", q! "%N%n%O%n%A%nP.O. Box %P%n%C %Z"),
     (q! "Upper", q! "R"),
     (q! "PostalCodeFormat", q! "\\d{5,6}")]),
   (q! "KI", [(q! "AddressFormat", q! "%N%n%O%n%A%n%S%n%C"),
     (q! "Upper", q! "ACNOS")]),
   (q! "KN", [(q! "AddressFormat", q! "%N%n%O%n%A%n%C, %S"),
     (q! "Required", q! "ACS")]),
   (q! "KR", [(q! "AddressFormat", q! "%R%n%S %C%D%n%A%n%O%n%N%n%Z"),
     (q! "LatinAddressFormat", q! "%N%n%O%n%A%n%D%n%C%n%S%n%Z"),
     (q! "Upper", q! "Z"),
     (q! "Required", q! "ACSZ"),
     (q! "PostalCodeFormat", q! "\\d{5}")]),
   (q! "KW", [(q! "AddressFormat", q! "%N%n%O%n%A%n%Z %C"),
     (q! "PostalCodeFormat", q! "\\d{5}")]),
   (q! "KY", [(q! "AddressFormat", q! "%N%n%O%n%A%n%S %Z"),
     (q! "Required", q! "AS"),
     (q! "PostalCodeFormat", q! "KY\\d-\\d{4}")]),
   (q! "KZ", [(q! "AddressFormat", q! "%Z%n%S%n%C%n%A%n%O%n%N"),
     (q! "PostalCodeFormat", q! "\\d{6}")]),
   (q! "LA", [(q! "AddressFormat", q! "%N%n%O%n%A%n%Z %C"),
     (q! "PostalCodeFormat", q! "\\d{5}")]),
   (q! "LB", [(q! "AddressFormat", q! "%N%n%O%n%A%n%C %Z"),
     (q! "PostalCodeFormat", q! "(?:\\d{4})(?: ?(?:\\d{4}))?")]),
   (q! "LI", [(q! "AddressFormat", q! "%O%n%N%n%A%nFL-%Z %C"),
     (q! "Required", q! "ACZ"),
     (q! "PostalCodeFormat", q! "948[5-9]|949[0-8]")]),
   (q! "LK", [(q! "AddressFormat", q! "%N%n%O%n%A%n%C%n%Z"),
     (q! "PostalCodeFormat", q! "\\d{5}")]),
   (q! "LR", [(q! "AddressFormat", q! "%N%n%O%n%A%n%Z %C"),
     (q! "PostalCodeFormat", q! "\\d{4}")]),
   (q! "LS", [(q! "AddressFormat", q! "%N%n%O%n%A%n%C %Z"),
     (q! "PostalCodeFormat", q! "\\d{3}")]),
   (q! "LT", [(q! "AddressFormat", q! "%O%n%N%n%A%nLT-%Z %C"),
     (q! "Required", q! "ACZ"),
     (q! "PostalCodeFormat", q! "\\d{5}")]),
   (q! "LU", [(q! "AddressFormat", q! "%O%n%N%nPO Box %P%n%A%nL-%Z %C"),
     (q! "AddressFormat[fr]", q! "%O%n%N%nBP %P%n%A%nL-%Z %C"),
     (q! "AddressFormat[de]", q! "%O%n%N%nPostfach %P%n%A%nL-%Z %C"),
     (q! "Upper", q! "R"),
     (q! "Required", q! "ACZ"),
     (q! "PostalCodeFormat", q! "\\d{4}")]),
   (q! "LV", [(q! "AddressFormat", q! "%N%n%O%n%A%n%C, %Z"),
     (q! "Required", q! "ACZ"),
     (q! "PostalCodeFormat", q! "LV-\\d{4}")]),
   (q! "MA", [(q! "AddressFormat", q! "%N%n%O%n%A%n%Z %C"),
     (q! "PostalCodeFormat", q! "\\d{5}")]),
   (q! "MC", [(q! "AddressFormat", q! "%N%n%O%n%A%nMC-%Z %C %X"),
     (q! "PostalCodeFormat", q! "980\\d{2}")]),
   (q! "MD", [(q! "AddressFormat", q! "%N%n%O%n%A%nMD-%Z %C"),
     (q! "PostalCodeFormat", q! "\\d{4}")]),
   (q! "ME", [(q! "AddressFormat", [37, 78, 37, 110, 37, 79, 37, 110, 37, 65, 37, 110, 112, 111, 353, 116, 97, 110, 115, 107, 105, 32, 102, 97, 104, 32, 37, 80, 37, 110, 37, 90, 32, 37, 67]),
     (q! "AddressFormat[sr]", [37, 78, 37, 110, 37, 79, 37, 110, 37, 65, 37, 110, 1087, 1086, 1096, 1090, 1072, 1085, 1089, 1082, 1080, 32, 1092, 1072, 1093, 32, 37, 80, 37, 110, 37, 90, 32, 37, 67]),
     (q! "Upper", q! "R"),
     (q! "Required", q! "ACZ"),
     (q! "PostalCodeFormat", q! "8\\d{4}")]),
   (q! "MF", [(q! "AddressFormat", q! "%O%n%N%n%A%nBP %P%n%Z %C %X"),
     (q! "Upper", q! "ACXR"),
     (q! "PostalCodeFormat", q! "9[78][01]\\d{2}")]),
   (q! "MG", [(q! "AddressFormat", q! "%N%n%O%n%A%n%Z %C"),
     (q! "PostalCodeFormat", q! "\\d{3}")]),
   (q! "MH", [(q! "AddressFormat", q! "%N%n%O%n%A%n%C %S %Z"),
     (q! "Upper", q! "ACNOS"),
     (q! "Required", q! "ACSZ"),
     (q! "PostalCodeFormat", q! "(969[67]\\d)(?:[ \\-](\\d{4}))?")]),
   (q! "MK", [(q! "AddressFormat", q! "%N%n%O%n%A%n%Z %C"),
     (q! "PostalCodeFormat", q! "\\d{4}")]),
   (q! "MM", [(q! "AddressFormat", q! "%N%n%O%n%A%n%C, %Z"),
     (q! "PostalCodeFormat", q! "\\d{5}")]),
   (q! "MN", [(q! "AddressFormat", q! "%N%n%O%n%A%n%C%n%S %Z"),
     (q! "PostalCodeFormat", q! "\\d{5}")]),
   (q! "MO", [(q! "AddressFormat", q! "%A%n%O%n%N"),
     (q! "LatinAddressFormat", q! "%N%n%O%n%A"),
     (q! "Required", q! "A")]),
   (q! "MP", [(q! "AddressFormat", q! "%N%n%O%n%A%nPO BOX %P%n%C %S %Z"),
     (q! "Upper", q! "ACNOSR"),
     (q! "Required", q! "ACSZ"),
     (q! "PostalCodeFormat", q! "(9695[012])(?:[ \\-](\\d{4}))?")]),
   (q! "MQ", [(q! "AddressFormat", q! "%O%n%N%n%A%n%Z %C %X"),
     (q! "Upper", q! "ACX"),
     (q! "Required", q! "ACZ"),
     (q! "PostalCodeFormat", q! "9[78]2\\d{2}")]),
   (q! "MT", [(q! "AddressFormat", q! "%N%n%O%n%A%n%C %Z"),
     (q! "Upper", q! "CZ"),
     (q! "PostalCodeFormat", q! "[A-Z]{3} ?\\d{2,4}")]),
   (q! "MU", [(q! "AddressFormat", q! "%N%n%O%n%A%n%Z%n%C"),
     (q! "Upper", q! "CZ"),
     (q! "PostalCodeFormat", q! "\\d{3}(?:\\d{2}|[A-Z]{2}\\d{3})")]),
   (q! "MV", [(q! "AddressFormat", q! "%N%n%O%n%A%n%C %Z"),
     (q! "PostalCodeFormat", q! "\\d{5}")]),
   (q! "MW", [(q! "AddressFormat", q! "%N%n%O%n%A%n%C %X")]),
   (q! "MX", [(q! "AddressFormat", q! "%N%n%O%n%A%n%D%n%Z %C, %S"),
     (q! "Upper", q! "CSZ"),
     (q! "Required", q! "ACSZ"),
     (q! "PostalCodeFormat", q! "\\d{5}")]),
   (q! "MZ", [(q! "AddressFormat", q! "%N%n%O%n%A%n%Z %C%S"),
     (q! "PostalCodeFormat", q! "\\d{4}")]),
   (q! "NA", [(q! "AddressFormat", q! "%N%n%O%n%A%n%C%nP.O. Box %P%n%Z"),
     (q! "PostalCodeFormat", q! "\\d{5}")]),
   (q! "NC", [(q! "AddressFormat", q! "%O%n%N%n%A%n%Z %C %X"),
     (q! "Upper", q! "ACX"),
     (q! "Required", q! "ACZ"),
     (q! "PostalCodeFormat", q! "988\\d{2}")]),
   (q! "NE", [(q! "AddressFormat", q! "%N%n%O%n%A%n%Z %C"),
     (q! "PostalCodeFormat", q! "\\d{4}")]),
   (q! "NF", [(q! "AddressFormat", q! "%O%n%N%n%A%n%C %S %Z"),
     (q! "Upper", q! "CS"),
     (q! "PostalCodeFormat", q! "2899")]),
   (q! "NG", [(q! "AddressFormat", q! "%N%n%O%n%A%n%D%n%C %Z%n%S"),
     (q! "Upper", q! "CS"),
     (q! "PostalCodeFormat", q! "\\d{6}")]),
   (q! "NI", [(q! "AddressFormat", q! "%N%n%O%n%A%n%Z%n%C, %S"),
     (q! "Upper", q! "CS"),
     (q! "PostalCodeFormat", q! "\\d{5}")]),
   (q! "NL", [(q! "AddressFormat", q! "%O%n%N%nPostbus %P%n%A%n%Z %C"),
     (q! "Required", q! "ACZ"),
     (q! "PostalCodeFormat", q! "\\d{4} ?[A-Z]{2}")]),
   (q! "NO", [(q! "AddressFormat", q! "%N%n%O%nPostboks %P%n%A%n%Z %C"),
     (q! "Upper", q! "R"),
     (q! "Required", q! "ACZ"),
     (q! "PostalCodeFormat", q! "\\d{4}")]),
   (q! "NP", [(q! "AddressFormat", q! "%N%n%O%n%A%n%C %Z"),
     (q! "PostalCodeFormat", q! "\\d{5}")]),
   (q! "NR", [(q! "AddressFormat", q! "%N%n%O%n%A%n%S"),
     (q! "Required", q! "AS")]),
   (q! "NZ", [(q! "AddressFormat", q! "%N%n%O%nPO Box %P%n%A%n%D%n%C %Z"),
     (q! "Upper", q! "R"),
     (q! "Required", q! "ACZ"),
     (q! "PostalCodeFormat", q! "\\d{4}")]),
   (q! "OM", [(q! "AddressFormat", q! "%N%n%O%n%A%n%Z%n%C"),
     (q! "PostalCodeFormat", q! "(?:PC )?\\d{3}")]),
   (q! "PA", [(q! "AddressFormat", q! "%N%n%O%n%A%n%C%n%S"),
     (q! "Upper", q! "CS")]),
   (q! "PE", [(q! "AddressFormat", q! "%N%n%O%n%A%n%C %Z%n%S"),
     (q! "PostalCodeFormat", q! "(?:LIMA \\d{1,2}|CALLAO 0?\\d)|[0-2]\\d{4}")]),
   (q! "PF", [(q! "AddressFormat", q! "%N%n%O%n%A%n%Z %C %S"),
     (q! "Upper", q! "CS"),
     (q! "Required", q! "ACSZ"),
     (q! "PostalCodeFormat", q! "987\\d{2}")]),
   (q! "PG", [(q! "AddressFormat", q! "%N%n%O%n%A%n%C %Z %S"),
     (q! "Required", q! "ACS"),
     (q! "PostalCodeFormat", q! "\\d{3}")]),
   (q! "PH", [(q! "AddressFormat", q! "%N%n%O%n%A%n%D, %C%n%Z %S"),
     (q! "PostalCodeFormat", q! "\\d{4}")]),
   (q! "PK", [(q! "AddressFormat", q! "%N%n%O%n%A%n%C-%Z"),
     (q! "PostalCodeFormat", q! "\\d{5}")]),
   (q! "PL", [(q! "AddressFormat", q! "%N%n%O%n%A%n%Z %C"),
     (q! "Required", q! "ACZ"),
     (q! "PostalCodeFormat", q! "\\d{2}-\\d{3}")]),
   (q! "PM", [(q! "AddressFormat", q! "%O%n%N%n%A%n%Z %C %X"),
     (q! "Upper", q! "ACX"),
     (q! "Required", q! "ACZ"),
     (q! "PostalCodeFormat", q! "9[78]5\\d{2}")]),
   (q! "PN", [(q! "AddressFormat", q! "%N%n%O%n%A%n%C%n%Z"),
     (q! "Upper", q! "CZ"),
     (q! "Required", q! "ACZ"),
     (q! "PostalCodeFormat", q! "PCRN 1ZZ")]),
   (q! "PR", [(q! "AddressFormat", q! "%N%n%O%n%A%n%C PR %Z"),
     (q! "Upper", q! "ACNO"),
     (q! "Required", q! "ACZ"),
     (q! "PostalCodeFormat", q! "(00[679]\\d{2})(?:[ \\-](\\d{4}))?")]),
   (q! "PT", [(q! "AddressFormat", q! "%N%n%O%n%A%n%Z %C"),
     (q! "Required", q! "ACZ"),
     (q! "PostalCodeFormat", q! "\\d{4}-\\d{3}")]),
   (q! "PW", [(q! "AddressFormat", q! "%N%n%O%n%A%n%C %S %Z"),
     (q! "Upper", q! "ACNOS"),
     (q! "Required", q! "ACSZ"),
     (q! "PostalCodeFormat", q! "(969(?:39|40))(?:[ \\-](\\d{4}))?")]),
   (q! "PY", [(q! "AddressFormat", q! "%N%n%O%n%A%n%Z %C"),
     (q! "PostalCodeFormat", q! "\\d{4}")]),
   (q! "RE", [(q! "AddressFormat", q! "%O%n%N%n%A%n%Z %C %X"),
     (q! "Upper", q! "ACX"),
     (q! "Required", q! "ACZ"),
     (q! "PostalCodeFormat", q! "9[78]4\\d{2}")]),
   (q! "RO", [(q! "AddressFormat", q! "%N%n%O%n%A%n%Z %C"),
     (q! "Upper", q! "AC"),
     (q! "Required", q! "ACZ"),
     (q! "PostalCodeFormat", q! "\\d{6}")]),
   (q! "RS", [(q! "AddressFormat", [37, 78, 37, 110, 37, 79, 37, 110, 37, 65, 37, 110, 1087, 1086, 1096, 1090, 1072, 1085, 1089, 1082, 1080, 32, 1092, 1072, 1093, 32, 37, 80, 37, 110, 37, 90, 32, 37, 67]),
     (q! "AddressFormat[sr@latin]", [37, 78, 37, 110, 37, 79, 37, 110, 37, 65, 37, 110, 112, 111, 353, 116, 97, 110, 115, 107, 105, 32, 102, 97, 104, 32, 37, 80, 37, 110, 37, 90, 32, 37, 67]),
     (q! "Upper", q! "R"),
     (q! "Required", q! "ACZ"),
     (q! "PostalCodeFormat", q! "\\d{5,6}")]),
   (q! "RU", [(q! "AddressFormat", q! "%N%n%O%n%A%n%C%n%S%n%Z"),
     (q! "LatinAddressFormat", q! "%N%n%O%n%A%n%C%n%S%n%Z"),
     (q! "Upper", q! "AC"),
     (q! "PostalCodeFormat", q! "\\d{6}")]),
   (q! "SA", [(q! "AddressFormat", q! "%N%n%O%n%A%n%C %Z"),
     (q! "PostalCodeFormat", q! "\\d{5}")]),
   (q! "SC", [(q! "AddressFormat", q! "%N%n%O%n%A%n%C%n%S"),
     (q! "Upper", q! "S")]),
   (q! "SD", [(q! "AddressFormat", q! "%N%n%O%n%A%n%C%n%Z"),
     (q! "PostalCodeFormat", q! "\\d{5}")]),
   (q! "SE", [(q! "AddressFormat", q! "%O%n%N%nBox %P%n%A%nSE-%Z %C"),
     (q! "Required", q! "ACZ"),
     (q! "PostalCodeFormat", q! "\\d{3} ?\\d{2}")]),
   (q! "SG", [(q! "AddressFormat", q! "%N%n%O%n%A%nSINGAPORE %Z"),
     (q! "Required", q! "AZ"),
     (q! "PostalCodeFormat", q! "\\d{6}")]),
   (q! "SH", [(q! "AddressFormat", q! "%N%n%O%n%A%n%C%n%Z"),
     (q! "Upper", q! "CZ"),
     (q! "Required", q! "ACZ"),
     (q! "PostalCodeFormat", q! "(?:ASCN|STHL) 1ZZ")]),
   (q! "SI", [(q! "AddressFormat", q! "%N%n%O%n%A%np.p. %P%nSI-%Z %C"),
     (q! "PostalCodeFormat", q! "\\d{4}")]),
   (q! "SJ", [(q! "AddressFormat", q! "%N%n%O%n%A%n%Z %C"),
     (q! "Required", q! "ACZ"),
     (q! "PostalCodeFormat", q! "\\d{4}")]),
   (q! "SK", [(q! "AddressFormat", q! "%N%n%O%n%A%n%Z %C"),
     (q! "Required", q! "ACZ"),
     (q! "PostalCodeFormat", q! "\\d{3} ?\\d{2}")]),
   (q! "SM", [(q! "AddressFormat", q! "%N%n%O%n%A%n%Z %C"),
     (q! "Required", q! "AZ"),
     (q! "PostalCodeFormat", q! "4789\\d")]),
   (q! "SN", [(q! "AddressFormat", q! "%N%n%O%n%A%n%Z %C"),
     (q! "PostalCodeFormat", q! "\\d{5}")]),
   (q! "SO", [(q! "AddressFormat", q! "%N%n%O%n%A%n%C, %S %Z"),
     (q! "Upper", q! "ACS"),
     (q! "Required", q! "ACS"),
     (q! "PostalCodeFormat", q! "[A-Z]{2} ?\\d{5}")]),
   (q! "SR", [(q! "AddressFormat", q! "%N%n%O%n%A%n%C%n%S"),
     (q! "Upper", q! "AS")]),
   (q! "SV", [(q! "AddressFormat", q! "%N%n%O%n%A%n%Z-%C%n%S"),
     (q! "Upper", q! "CSZ"),
     (q! "Required", q! "ACS"),
     (q! "PostalCodeFormat", q! "CP [1-3][1-7][0-2]\\d")]),
   (q! "SZ", [(q! "AddressFormat", q! "%N%n%O%n%A%n%C%n%Z"),
     (q! "Upper", q! "ACZ"),
     (q! "PostalCodeFormat", q! "[HLMS]\\d{3}")]),
   (q! "TC", [(q! "AddressFormat", q! "%N%n%O%n%A%n%C%n%Z"),
     (q! "Upper", q! "CZ"),
     (q! "Required", q! "ACZ"),
     (q! "PostalCodeFormat", q! "TKCA 1ZZ")]),
   (q! "TH", [(q! "AddressFormat", q! "%N%n%O%n%A%n%D %C%n%S %Z"),
     (q! "LatinAddressFormat", q! "%N%n%O%n%A%n%D, %C%n%S %Z"),
     (q! "Upper", q! "S"),
     (q! "PostalCodeFormat", q! "\\d{5}")]),
   (q! "TJ", [(q! "AddressFormat", q! "%N%n%O%n%A%n%Z %C"),
     (q! "PostalCodeFormat", q! "\\d{6}")]),
   (q! "TM", [(q! "AddressFormat", q! "%N%n%O%n%A%n%Z %C"),
     (q! "PostalCodeFormat", q! "\\d{6}")]),
   (q! "TN", [(q! "AddressFormat", q! "%N%n%O%n%A%n%Z %C"),
     (q! "PostalCodeFormat", q! "\\d{4}")]),
   (q! "TR", [(q! "AddressFormat", q! "%N%n%O%n%A%n%Z %C/%S"),
     (q! "Required", q! "ACZ"),
     (q! "PostalCodeFormat", q! "\\d{5}")]),
   (q! "TV", [(q! "AddressFormat", q! "%N%n%O%n%A%n%C%n%S"),
     (q! "Upper", q! "ACS")]),
   (q! "TW", [(q! "AddressFormat", q! "%Z%n%S%C%n%A%n%O%n%N"),
     (q! "LatinAddressFormat", q! "%N%n%O%n%A%n%C, %S %Z"),
     (q! "Required", q! "ACSZ"),
     (q! "PostalCodeFormat", q! "\\d{3}(?:\\d{2,3})?")]),
   (q! "TZ", [(q! "AddressFormat", q! "%N%n%O%n%A%n%Z %C"),
     (q! "PostalCodeFormat", q! "\\d{4,5}")]),
   (q! "UA", [(q! "AddressFormat", q! "%N%n%O%n%A%n%C%n%S%n%Z"),
     (q! "LatinAddressFormat", q! "%N%n%O%n%A%n%C%n%S%n%Z"),
     (q! "Required", q! "ACZ"),
     (q! "PostalCodeFormat", q! "\\d{5}")]),
   (q! "UM", [(q! "AddressFormat", q! "%N%n%O%n%A%n%C %S %Z"),
     (q! "Upper", q! "ACNOS"),
     (q! "Required", q! "ACS"),
     (q! "PostalCodeFormat", q! "96898")]),
   (q! "US", [(q! "AddressFormat", q! "%N%n%O%n%A%nPO BOX %P%n%C, %S %Z"),
     (q! "Upper", q! "CSR"),
     (q! "Required", q! "ACSZ"),
     (q! "PostalCodeFormat", q! "(\\d{5})(?:[ \\-](\\d{4}))?")]),
   (q! "UY", [(q! "AddressFormat", q! "%N%n%O%n%A%n%Z %C %S"),
     (q! "Upper", q! "CS"),
     (q! "PostalCodeFormat", q! "\\d{5}")]),
   (q! "UZ", [(q! "AddressFormat", q! "%N%n%O%n%A%n%Z %C%n%S"),
     (q! "Upper", q! "CS"),
     (q! "PostalCodeFormat", q! "\\d{6}")]),
   (q! "VA", [(q! "AddressFormat", q! "%N%n%O%n%A%n%Z %C"),
     (q! "PostalCodeFormat", q! "00120")]),
   (q! "VC", [(q! "AddressFormat", q! "%N%n%O%n%A%n%C %Z"),
     (q! "PostalCodeFormat", q! "VC\\d{4}")]),
   (q! "VE", [(q! "AddressFormat", q! "%N%n%O%n%A%n%C %Z, %S"),
     (q! "Upper", q! "CS"),
     (q! "Required", q! "ACS"),
     (q! "PostalCodeFormat", q! "\\d{4}")]),
   (q! "VG", [(q! "AddressFormat", q! "%N%n%O%n%A%n%C%n%Z"),
     (q! "Required", q! "A"),
     (q! "PostalCodeFormat", q! "VG\\d{4}")]),
   (q! "VI", [(q! "AddressFormat", q! "%N%n%O%n%A%n%C %S %Z"),
     (q! "Upper", q! "ACNOS"),
     (q! "Required", q! "ACSZ"),
     (q! "PostalCodeFormat", q! "(008(?:(?:[0-4]\\d)|(?:5[01])))(?:[ \\-](\\d{4}))?")]),
   (q! "VN", [(q! "AddressFormat", q! "%N%n%O%n%A%n%C%n%S %Z"),
     (q! "LatinAddressFormat", q! "%N%n%O%n%A%n%C%n%S %Z"),
     (q! "PostalCodeFormat", q! "\\d{5}\\d?")]),
   (q! "WF", [(q! "AddressFormat", q! "%O%n%N%n%A%n%Z %C %X"),
     (q! "Upper", q! "ACX"),
     (q! "Required", q! "ACZ"),
     (q! "PostalCodeFormat", q! "986\\d{2}")]),
   (q! "YT", [(q! "AddressFormat", q! "%O%n%N%n%A%n%Z %C %X"),
     (q! "Upper", q! "ACX"),
     (q! "Required", q! "ACZ"),
     (q! "PostalCodeFormat", q! "976\\d{2}")]),
   (q! "ZA", [(q! "AddressFormat", q! "%N%n%O%n%A%n%D%n%C%n%Z"),
     (q! "Required", q! "ACZ"),
     (q! "PostalCodeFormat", q! "\\d{4}")]),
   (q! "ZM", [(q! "AddressFormat", q! "%N%n%O%n%A%n%Z %C"),
     (q! "PostalCodeFormat", q! "\\d{5}")])]

/-- The entries of a group. -/
def shippedGroup (code : QString) : List (QString × QString) := ((shippedGroups.find? fun g => g.1 = code).map (·.2)).getD []

/-- `KConfigGroup::readEntry`: an entry `key[language]` for one of the user's languages (best first) comes before the plain one. -/
def shippedEntry (languages : List QString) (code key : QString) : Option QString :=
  ((languages.map fun l => key ++ q! "[" ++ l ++ q! "]") ++ [key]).findSome? fun k => ((shippedGroup code).find? fun e => e.1 = k).map (·.2)

end KC
