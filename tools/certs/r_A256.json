{"11117": null, "8293283": [["11117", "2", "4828471"]], "349": null, "17": null, "6016063": [["349", "2", "3191248"], ["17", "2", "927939"]], "4490362170434611": [["8293283", "2", "1480632575026203"], ["6016063", "2", "2699636031698810"]], "200499081756742501704908413": [["4490362170434611", "2", "168115841024595681516178109"]], "46916785131077745398948568643": [["200499081756742501704908413", "2", "9477092828071769108793679916"]], "3931736492670839143743017191070058480879893": [["46916785131077745398948568643", "2", "2566593664141214535466662438264396744464726"]], "9063250566477473029396601832239191284702116561707029881813448155537110319": [["3931736492670839143743017191070058480879893", "2", "7034126162643125672724792241857791056533965452745999145488939042823913632"]], "28948022309329048855892746252171976963338560298092253442512153408785530358887": [["9063250566477473029396601832239191284702116561707029881813448155537110319", "2", "24292368581643473196453972151497998128099747861554138537523049931172797022302"]]}