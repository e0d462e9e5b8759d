{
"C11": {
"status": "proved",
"note": "The plain round trip a user expects is refuted (C11_request_roundtrip_fails); proved is the exact result and the exact condition for equality."
},
"C12": {
"status": "proved",
"note": "The claim without the length condition is refuted (C12_short_frame_accepted); 16 bytes is the exact border (C12_iff)."
}
}