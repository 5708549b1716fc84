STATUS = {}
NOTES = {
"C06": "True as stated for copies that do not overlap destructively; a forward-overlapping self-copy repeats the source periodically (C06_periodic), so the Java Card contract is violated (C06_overlap_wrong).",
"C07": "The failed copy leaves the partial result in place (C07_not_atomic); abort does not restore it (C07_abort_keeps).",
"C13": "getPartialBytes never succeeds: every call raises ArrayIndexOutOfBoundsException or NameError.",
"C10": "What happens when the array given to the constructor is changed later is C120_aid and C114.",
"C18": "Finding: with array PINs only some of the bytes are compared, so a wrong PIN can be accepted (C18_wrong_pin_accepted) and the right one refused (C18_right_pin_refused).",
"C22": "Finding: case 3E is always refused, 4E with Le a multiple of 256 below 65536 is refused, 2E with such an Le is misread as 256.",
"C23": "Finding: two malformed extended families are accepted (C23_malformed_accepted).",
}
