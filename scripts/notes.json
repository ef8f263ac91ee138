{"C09":{"also":["L1.builtin_call"],"note":"Stated for the application of the native function; builtin_call links it to the written call."}}
