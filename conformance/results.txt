assert_failed.sav 2437 read ok; reencode equal: true (2437); JSON back equal: true true 1 s 
component8.sav 1059417 read ok; reencode equal: true (1059417); JSON back equal: true true 33 s 
Delegate.sav 1575 read ok; reencode equal: true (1575); JSON back equal: true true 2 s 
enum_array.sav 3693759 read ok; reencode equal: true (3693759); JSON back equal: true true 47 s 
features_01.bin 581181 read ok; reencode equal: true (581181); JSON back equal: true true 7 s 
Options.sav 1197 read ok; reencode equal: true (1197); JSON back equal: true true 1 s 
package_version_524.sav 598841 read ok; reencode equal: true (598841); JSON back equal: true true 16 s 
package_version_525.sav 6076 read ok; reencode equal: true (6076); JSON back equal: true true 1 s 
palworld_zlib.sav 7847 read ok; reencode equal: true (7847); JSON back equal: true true 1 s 
Profile_0.sav 20237 read ok; reencode equal: true (20237); JSON back equal: true true 2 s JSON matches
regression_01.bin 1079 read ok; reencode equal: true (1079); JSON back equal: true true 1 s JSON matches
ro_64bit_fav.sav 2316607 read ok; reencode equal: true (2316607); JSON back equal: true true 39 s 
SaveSlot_03.sav 2817 read ok; reencode equal: true (2817); JSON back equal: true true 1 s JSON matches
Slot1.sav 2503 read ok; reencode equal: true (2503); JSON back equal: true true 1 s JSON matches
Slot2.sav 76623 read ok; reencode equal: true (76623); JSON back equal: true true 2 s 
Slot3.sav 1182418 read ok; reencode equal: true (1182418); JSON back equal: true true 31 s 
string_table_entry.sav 2111475 read ok; reencode equal: true (2111475); JSON back equal: true true 40 s 
tagcontainer.sav 1388 read ok; reencode equal: true (1388); JSON back equal: true true 1 s JSON matches
text_property_noarray.bin 264566 read ok; reencode equal: true (264566); JSON back equal: true true 3 s 
transform.sav 1511710 read ok; reencode equal: true (1511710); JSON back equal: true true 35 s 
vector2d.sav 10752 read ok; reencode equal: true (10752); JSON back equal: true true 1 s JSON matches
79 79 cases
 
zlib_check.py: 3720 inputs, 3720 agree, 2331 of them not streams; 0 differ

json_check.py: 8983 texts, 8983 agree, 4782 of them refused; 0 differ
JSON texts of the test-suite, loaded directly and by way of a value, compared with the saves: 6 6 equal

pretty_check.py: 85 texts (79 properties, 6 saves), 54 floats compared as numbers; 0 differ
